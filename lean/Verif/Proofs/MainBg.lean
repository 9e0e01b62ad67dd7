import Verif.Proofs.Main
import Verif.Proofs.Parser

/-! # The background file -/

namespace Coffe
open Classical

theorem bg_copy_ok {bg : BgTable} {row : ℕ → BgRow} (h : ∀ i < bg.size, bg.rows.load i = .ok (row i)) (g : BgRow → ℝ) :
    bg_copy bg g = .ok (Buf.of (· < bg.size) fun i => g (row i)) := by
  unfold bg_copy
  rw [cfor_fill (cmalloc bg.size) (upTo 0 bg.size) id (fun i => g (row i)) _ (by simpa using nodup_upTo 0 bg.size)
    (fun i hi => (mem_upTo.1 hi).2) (fun i hi c _ _ => by
      rw [h i (mem_upTo.1 hi).2]
      rfl)]
  rw [Buf.fill_eq_of _ _ _ (fun i hi => mem_upTo.2 ⟨Nat.zero_le _, hi⟩) (fun _ _ => rfl) (fun i hi => (mem_upTo.1 hi).2)]
  rfl

theorem bg_column_known {name : Text} (h : name ∈ bgNames) : bg_column_of name = some (bgValue name, bgUnit name) := by
  unfold bgNames at h
  simp only [List.map_cons, List.map_nil, List.mem_cons, List.not_mem_nil, or_false] at h
  rcases h with rfl | rfl | rfl | rfl | rfl | rfl | rfl | rfl <;> rfl

theorem bg_column_unknown {name : Text} (h : name ∉ bgNames) : bg_column_of name = none := by
  unfold bgNames at h
  simp only [List.map_cons, List.map_nil, List.mem_cons, List.not_mem_nil, or_false, not_or] at h
  obtain ⟨h1, h2, h3, h4, h5, h6, h7, h8⟩ := h
  unfold bg_column_of
  rw [if_neg h1, if_neg h2, if_neg h3, if_neg h4, if_neg h5, if_neg h6, if_neg h7, if_neg h8]

theorem bgTitles_concat (l : List Text) (name : Text) :
    bgTitles (l ++ [name]) = bgTitles l ++ if name ∈ bgNames then bgTitle l.length name else [] := by
  unfold bgTitles
  rw [List.zipIdx_append]
  simp

theorem bgTitles_known {l : List Text} (h : ∀ n ∈ l, n ∈ bgNames) : bgTitles l = bgHeader l := by
  unfold bgTitles bgHeader
  congr 1
  refine List.flatMap_congr fun x hx => ?_
  rw [if_pos (h _ (List.fst_mem_of_mem_zipIdx hx))]

theorem bg_loop {bg : BgTable} {row : ℕ → BgRow} (h : ∀ i < bg.size, bg.rows.load i = .ok (row i)) (names : List Text)
    (few : names.length < 20) (fits : (bgTitles names).length < COFFE_MAX_STRLEN) :
    ∃ o, bg_outputs bg names = .ok (o, bgTitles names) ∧ o.dom = (fun i => i < 20) ∧ ∀ j < 20, o.val j = some
      ((names[j]?).bind fun name => if name ∈ bgNames then some (Buf.of (· < bg.size) fun i => bgValue name (row i)) else none) := by
  have key : ∀ k, k ≤ names.length → ∃ o, cfor (upTo 0 k) (fun i (s : Buf ℕ (Option (Buf ℕ ℝ)) × Text) => do
      let name ← ld names i
      match bg_column_of name with
      | none => pure s
      | some g => do
        let col ← bg_copy bg g.1
        let o ← s.1.store i (some col)
        let h ← strncat s.2 (snprintf (int_text (i + 1) ++ [')'] ++ name ++ g.2 ++ ['\t']))
        pure (o, h)) (Buf.of (· < 20) (fun _ => none), "# ".toList) = .ok (o, bgTitles (names.take k)) ∧
      o.dom = (fun i => i < 20) ∧ ∀ j < 20, o.val j = some (((names.take k)[j]?).bind fun name =>
        if name ∈ bgNames then some (Buf.of (· < bg.size) fun i => bgValue name (row i)) else none) := by
    intro k
    induction k with
    | zero =>
      intro _
      refine ⟨_, rfl, rfl, fun j hj => ?_⟩
      simp [Buf.of, hj]
    | succ k ih =>
      intro hk
      obtain ⟨o, h1, h2, h3⟩ := ih (by omega)
      have hkn : k < names.length := by omega
      have htake : names.take (k + 1) = names.take k ++ [names[k]] := (List.take_concat_get' names k hkn).symm
      have htl : (names.take k).length = k := by simp; omega
      have hhead : bgTitles (names.take (k + 1)) =
          bgTitles (names.take k) ++ if names[k] ∈ bgNames then bgTitle k names[k] else [] := by
        rw [htake, bgTitles_concat, htl]
      have hld : ld names k = .ok names[k] := by simp [ld, hkn]
      have hup : upTo 0 (k + 1) = upTo 0 k ++ [k] := by simp [upTo, List.range'_concat]
      by_cases hin : names[k] ∈ bgNames
      · rw [if_pos hin] at hhead
        have hpre : (bgTitles (names.take (k + 1))).length ≤ (bgTitles names).length := by
          have := List.take_append_drop (k + 1) names
          conv_rhs => rw [← this]
          unfold bgTitles
          rw [List.zipIdx_append]
          simp only [List.flatMap_append, List.length_append]
          omega
        have hlen : (bgTitles (names.take k)).length + (bgTitle k names[k]).length < COFFE_MAX_STRLEN := by
          rw [hhead, List.length_append] at hpre; omega
        have hsn : snprintf (bgTitle k names[k]) = bgTitle k names[k] :=
          List.take_of_length_le (by omega)
        obtain ⟨c, hc, hc1, hc2, hc3⟩ := o.store_wrote k (fun _ => some (Buf.of (· < bg.size) fun i => bgValue names[k] (row i)))
          (by rw [h2]; omega)
        refine ⟨c, ?_, hc1.trans h2, fun j hj => ?_⟩
        · rw [hup, cfor_append, h1]
          simp only [cfor, hld, bind, Except.bind, bg_column_known hin, bg_copy_ok h, hc]
          simp only [pure, Except.pure]
          rw [show int_text (k + 1) ++ [')'] ++ names[k] ++ bgUnit names[k] ++ ['\t'] = bgTitle k names[k] from rfl, hsn,
            strncat_ok hlen, hhead]
        · by_cases hjk : j = k
          · subst hjk
            rw [hc2 j rfl]
            simp [hkn, hin]
          · rw [hc3 j hjk, h3 j hj, htake]
            by_cases hjl : j < k
            · rw [List.getElem?_append_left (by omega)]
            · rw [List.getElem?_eq_none (by omega), List.getElem?_eq_none (by simp; omega)]
      · rw [if_neg hin, List.append_nil] at hhead
        refine ⟨o, ?_, h2, fun j hj => ?_⟩
        · rw [hup, cfor_append, h1, hhead]
          simp only [cfor, hld, bind, Except.bind, bg_column_unknown hin]
          rfl
        · rw [h3 j hj, htake]
          by_cases hjk : j = k
          · subst hjk
            rw [List.getElem?_eq_none (by omega)]
            simp [hkn, hin]
          · by_cases hjl : j < k
            · rw [List.getElem?_append_left (by omega)]
            · rw [List.getElem?_eq_none (by omega), List.getElem?_eq_none (by simp; omega)]
  obtain ⟨o, h1, h2, h3⟩ := key names.length le_rfl
  rw [List.take_length] at h1 h3
  exact ⟨o, h1, h2, h3⟩

/-- The columns before the first unknown name are written. -/
theorem output_background_upTo (R : Rounding) (s : Text) {bg : BgTable} {row : ℕ → BgRow}
    (h : ∀ i < bg.size, bg.rows.load i = .ok (row i)) {bins : ℤ} (hsize : (bg.size : ℤ) = bins) (good rest : List Text)
    (known : ∀ n ∈ good, n ∈ bgNames) (hne : good ≠ []) (hrest : ∀ n ∈ rest.head?, n ∉ bgNames)
    (few : (good ++ rest).length < 20) (fits : (bgTitles (good ++ rest)).length + 1 < COFFE_MAX_STRLEN) {e : Disk}
    (ho : e.opens s) (log : List Stage) :
    output_background R s (good ++ rest) bins bg ⟨e, log⟩ =
      (.ok (), ⟨e.put (path_of s) (ofLines (bgTitles (good ++ rest) :: (List.range bg.size).map fun i =>
        rowText (fmt R 10) ['\t'] (good.map fun name => bgValue name (row i)))), log⟩) := by
  obtain ⟨o, h1, h2, h3⟩ := bg_loop h (good ++ rest) few (by omega)
  have hbins : bins.toNat = bg.size := by omega
  rw [List.length_append] at few
  obtain ⟨args, hargs⟩ : ∃ args : List (Option (Buf ℕ ℝ)), collect (fun i => o.load i) (List.range 20) =
      .ok ((good.map fun name => Buf.of (· < bg.size) fun i => bgValue name (row i)).map some ++ none :: args) := by
    refine ⟨(List.range (19 - good.length)).map fun i => ((good ++ rest)[good.length + 1 + i]?).bind fun name =>
      if name ∈ bgNames then some (Buf.of (· < bg.size) fun i => bgValue name (row i)) else none, ?_⟩
    rw [collect_iff]
    refine List.forall₂_iff_get.mpr ⟨by simp; omega, fun i hi hi2 => ?_⟩
    have hi : i < 20 := by simpa using hi
    simp only [List.get_eq_getElem, List.getElem_range]
    rw [Buf.load_eq, h2, h3 i hi]
    refine ⟨hi, ?_⟩
    congr 1
    by_cases hl : i < good.length
    · rw [List.getElem_append_left (by simpa using hl), List.getElem?_append_left hl]
      simp [hl, known _ (List.getElem_mem hl)]
    · rw [List.getElem_append_right (by simpa using hl)]
      obtain ⟨k, rfl⟩ : ∃ k, i = good.length + k := ⟨i - good.length, by omega⟩
      have hk : good.length + k - ((good.map fun name =>
        (Buf.of (· < bg.size) fun i => bgValue name (row i) : Buf ℕ ℝ)).map some).length = k := by simp
      simp only [hk]
      cases k with
      | zero =>
        rw [List.getElem_cons_zero, Nat.add_zero, List.getElem?_append_right le_rfl, Nat.sub_self, ← List.head?_eq_getElem?]
        cases hr : rest.head? with
        | none => rfl
        | some n => rw [Option.bind_some, if_neg (hrest n hr)]
      | succ k =>
        rw [List.getElem_cons_succ, List.getElem_map, List.getElem_range, show good.length + (k + 1) = good.length + 1 + k by omega]
  have hw := C31_write_ncol_null R (good.map fun name => Buf.of (· < bg.size) fun i => bgValue name (row i))
    (good.map fun name i => bgValue name (row i)) (by simp)
    (by have := List.length_pos_of_ne_nil hne; simpa using this)
    (by simp [COFFE_MAX_ALLOCABLE]; omega) bg.size
    (fun j hj i hi => by simp [Buf.of, hi]) args (some (bgTitles (good ++ rest) ++ ['\n'])) ['\t']
  unfold output_background
  rw [Prog.bind_ok (Prog.lift_ok h1 _), Prog.bind_ok (Prog.lift_ok (strncat_ok (by simpa using fits)) _),
    Prog.bind_ok (Prog.lift_ok hargs _), hbins, Prog.bind_ok (Prog.lift_ok hw _)]
  simp only
  rw [Prog.bind_ok (fopen_w_ok ho _)]
  simp only
  rw [fputs_ok, put_contents, put_put]
  congr 3
  simp [ofLines, List.map_map, Function.comp_def]

/-- Writing the background file. -/
theorem output_background_ok (R : Rounding) (s : Text) {p : MainPar} {bg : BgTable} {row : ℕ → BgRow}
    (h : BgReady p bg row) {e : Disk} (ho : e.opens s) (log : List Stage) :
    output_background R s p.type_bg p.background_bins bg ⟨e, log⟩ =
      (.ok (), ⟨e.put (path_of s) (bgText R p.type_bg bg.size row), log⟩) := by
  have := output_background_upTo R s h.rows h.size p.type_bg [] h.known h.some_ (by simp) (by simpa using h.few)
    (by rw [List.append_nil, bgTitles_known h.known]; exact h.fits) ho log
  rw [List.append_nil, bgTitles_known h.known] at this
  exact this

end Coffe
