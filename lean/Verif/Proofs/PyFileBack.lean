import Verif.Proofs.PyFileLoad

/-!
# What comes back from a saved file
-/

namespace Coffe

theorem lists_no_cdm : ∀ l ∈ [floatArrayOptions, [Name.l], floatOptions, intOptions, choiceOptions],
    Name.omega_cdm ∉ l := by decide

/-- Where a parameter is read. -/
theorem read_somewhere (n : Name) (hn : ¬ n.Lost) :
    n ∈ floatArrayOptions ∨ n = .l ∨ n ∈ floatOptions ∨ n ∈ intOptions ∨ n ∈ choiceOptions := by
  unfold Name.Lost at hn
  cases n <;> first
    | exact absurd (by decide) hn
    | exact Or.inl (by decide)
    | exact Or.inr (Or.inl rfl)
    | exact Or.inr (Or.inr (Or.inl (by decide)))
    | exact Or.inr (Or.inr (Or.inr (Or.inl (by decide))))
    | exact Or.inr (Or.inr (Or.inr (Or.inr (by decide))))

theorem lists_disjoint :
    (∀ n ∈ floatArrayOptions, n ∉ [Name.l] ∧ n ∉ floatOptions ∧ n ∉ intOptions ∧ n ∉ choiceOptions) ∧
    (∀ n ∈ [Name.l], n ∉ floatArrayOptions ∧ n ∉ floatOptions ∧ n ∉ intOptions ∧ n ∉ choiceOptions) ∧
    (∀ n ∈ floatOptions, n ∉ floatArrayOptions ∧ n ∉ [Name.l] ∧ n ∉ intOptions ∧ n ∉ choiceOptions) ∧
    (∀ n ∈ intOptions, n ∉ floatArrayOptions ∧ n ∉ [Name.l] ∧ n ∉ floatOptions ∧ n ∉ choiceOptions) ∧
    (∀ n ∈ choiceOptions, n ∉ floatArrayOptions ∧ n ∉ [Name.l] ∧ n ∉ floatOptions ∧ n ∉ intOptions) := by
  refine ⟨?_, ?_, ?_, ?_, ?_⟩ <;> decide

theorem options_nodup : floatArrayOptions.Nodup ∧ floatOptions.Nodup ∧ intOptions.Nodup ∧ choiceOptions.Nodup := by
  decide

theorem lost_nowhere (n : Name) (hn : n.Lost) (hf : n ≠ .integrals_fftlog_sampling) :
    n ∉ floatArrayOptions ∧ n ∉ [Name.l] ∧ n ∉ floatOptions ∧ n ∉ intOptions ∧ n ∉ choiceOptions := by
  unfold Name.Lost at hn
  cases n <;> first
    | exact absurd hn (by decide)
    | exact absurd rfl hf
    | decide

open Classical

theorem back_floats {n : Name} (hn : n ∈ floatArrayOptions) {p : PyPar} {v old new : PyVal}
    (hv : ((getattr p n).text.getfloatArray.map .floats : Except Err PyVal) = .ok v)
    (h : n.doc.Accepted v old new) : new = getattr p n := by
  simp only [floatArrayOptions, List.mem_cons, List.not_mem_nil, or_false] at hn
  have key : ∀ (l : List ℝ) (ok : ℝ → Prop),
      ((Txt.floats l).getfloatArray.map .floats : Except Err PyVal) = .ok v →
      (Doc.reals ok).Accepted v old new → new = .floats l := by
    intro l ok hv h
    cases l with
    | nil => cases hv
    | cons x l =>
      cases hv
      obtain ⟨l', h1 | ⟨ns, h1, -⟩, -, rfl⟩ := h
      · cases h1; rfl
      · cases h1
  rcases hn with rfl | rfl | rfl | rfl | rfl | rfl | rfl | rfl | rfl | rfl <;> exact key _ _ hv h

theorem back_l {p : PyPar} {v old new : PyVal} (hv : (getattr p .l).text.getintArray = .ok v)
    (h : Name.l.doc.Accepted v old new) : new = getattr p .l := by
  have key : ∀ l : List ℤ, (Txt.ints l).getintArray = .ok v → new = .ints l := by
    intro l hv
    cases l with
    | nil => cases hv
    | cons x l =>
      cases hv
      obtain ⟨l', h1 | ⟨h1, -⟩, -, rfl⟩ := h
      · cases h1; rfl
      · cases h1
  exact key _ hv

theorem float_isReal {x y : ℝ} (h : (PyVal.float x).IsReal y) : y = x := by
  rcases h with h | ⟨_, h, -⟩ | ⟨h, -⟩ | ⟨h, -⟩ <;> cases h
  rfl

theorem int_isInt {n m : ℤ} (h : (PyVal.int n).IsInt m) : m = n := by
  rcases h with h | ⟨h, -⟩ | ⟨h, -⟩ <;> cases h
  rfl

theorem back_float {n : Name} (hn : n ∈ floatOptions) {p : PyPar} {v old new : PyVal}
    (hv : (getattr p n).text.getfloat = .ok v) (h : n.doc.Accepted v old new) :
    new = getattr p n ∨ (n.Tolerant ∧ new = old ∧ (getattr p n).Near old) := by
  simp only [floatOptions, List.mem_cons, List.not_mem_nil, or_false] at hn
  have k1 : ∀ (x a b : ℝ), (Txt.float x).getfloat = .ok v → (Doc.cosmology a b).Accepted v old new →
      new = .float x ∨ (new = old ∧ (PyVal.float x).Near old) := by
    intro x a b hv h
    cases hv
    obtain ⟨y, hy, -, -, h | ⟨h1, z, h2, h3⟩⟩ := h
    · rw [float_isReal hy] at h; exact Or.inl h
    · rw [float_isReal hy] at h3; exact Or.inr ⟨h1, x, z, rfl, h2, h3⟩
  have k2 : ∀ (x a b : ℝ), (Txt.float x).getfloat = .ok v → (Doc.real a b).Accepted v old new →
      new = .float x := by
    intro x a b hv h
    cases hv
    obtain ⟨y, hy, -, -, h⟩ := h
    rw [float_isReal hy] at h; exact h
  have k3 : ∀ (x : ℝ), (Txt.float x).getfloat = .ok v → Doc.anyReal.Accepted v old new →
      new = .float x := by
    intro x hv h
    cases hv
    obtain ⟨y, hy, h⟩ := h
    rw [float_isReal hy] at h; exact h
  have k4 : ∀ (k : ℤ), (Txt.int k).getfloat = .ok v → Doc.anyInt.Accepted v old new → new = .int k := by
    intro k hv h
    cases hv
    obtain ⟨m, hm, h⟩ := h
    rcases hm with (hm | ⟨hm, -⟩ | ⟨hm, -⟩) | hm
    · cases hm
    · cases hm
    · cases hm
    · rw [h, Int.cast_injective (PyVal.float.inj hm)]
  rcases hn with rfl | rfl | rfl | rfl | rfl | rfl | rfl | rfl | rfl | rfl | rfl | rfl | rfl | rfl | rfl |
    rfl | rfl | rfl | rfl | rfl | rfl | rfl <;> first
    | exact (k1 _ _ _ hv h).imp id fun h => ⟨by simp [Name.Tolerant], h⟩
    | exact Or.inl (k2 _ _ _ hv h)
    | exact Or.inl (k3 _ hv h)
    | exact Or.inl (k4 _ hv h)

theorem back_int {n : Name} (hn : n ∈ intOptions) (hf : n ≠ .integrals_fftlog_sampling) {p : PyPar}
    {v new : PyVal} (hv : (getattr p n).text.getint = .ok v)
    (h : n.doc.Accepted v (getattr PyPar.default n) new) : new = getattr p n := by
  simp only [intOptions, List.mem_cons, List.not_mem_nil, or_false] at hn
  have k1 : ∀ (b : Bool), (Txt.int (if b then 1 else 0)).getint = .ok v → new = .bool v.truth →
      new = .bool b := by
    intro b hv h
    cases hv
    rw [h]
    cases b <;> simp [PyVal.truth]
  have k2 : ∀ (k a b : ℤ), (Txt.int k).getint = .ok v → (Doc.int a b).Accepted v .other new →
      new = .int k := by
    intro k a b hv h
    cases hv
    obtain ⟨m, hm, -, -, h⟩ := h
    rw [int_isInt hm] at h; exact h
  have k3 : ∀ k : ℤ, (Txt.int k).getint = .ok v → (Doc.cosmologyInt (-100) 100).Accepted v (.int 1) new →
      new = .int k := by
    intro k hv h
    cases hv
    obtain ⟨m, hm, -, -, h | ⟨h1, z, h2, h3⟩⟩ := h
    · rw [int_isInt hm] at h; exact h
    · rw [int_isInt hm] at h3
      cases h2
      rw [h1]
      have h4 : |((k - 1 : ℤ) : ℝ)| < 1 := by
        push_cast
        refine lt_of_le_of_lt (by simpa using h3) (by norm_num)
      have h5 : |k - 1| < 1 := by exact_mod_cast h4
      have h6 := abs_lt.1 h5
      have : k = 1 := by omega
      rw [this]
  rcases hn with rfl | rfl | rfl | rfl | rfl | rfl | rfl | rfl | rfl | rfl | rfl | rfl | rfl | rfl | rfl |
    rfl | rfl | rfl | rfl | rfl | rfl <;> first
    | exact absurd rfl hf
    | exact k1 _ hv h
    | exact k2 _ _ _ hv h
    | exact k3 _ hv h

theorem back_choice {n : Name} (hn : n ∈ choiceOptions) {p : PyPar} {v old new : PyVal}
    (hv : (getattr p n).text.getintOrStr = .ok v) (h : n.doc.Accepted v old new) : new = getattr p n := by
  have key : ∀ (a : String) (k : ℕ) (names : List String), (Txt.str a).getintOrStr = .ok v →
      (Doc.choice k names).Accepted v old new → new = .str a := by
    intro a k names hv h
    cases hv
    obtain ⟨i, name, -, (((h1 | ⟨h1, -⟩ | ⟨h1, -⟩) | h1) | h1), h2⟩ := h <;> cases h1
    exact h2
  simp only [choiceOptions, List.mem_cons, List.not_mem_nil, or_false] at hn
  rcases hn with rfl | rfl | rfl | rfl <;> exact key _ _ _ hv h

/-- The parts of a successful round trip. -/
theorem round_trip {N : Num} {o : SetOrder} (ho : o.Valid) {s s' t : PyObj} {c : Config}
    (h1 : toFile N s = (.ok c, s')) (h2 : fromFile o c = .ok t) :
    (∀ n, ¬ n.Lost → getattr t.par n = getattr s.par n ∨
      (n.Tolerant ∧ getattr t.par n = getattr PyPar.default n ∧ (getattr s.par n).Near (getattr PyPar.default n))) ∧
    (∀ n, n.Lost → n ≠ .omega_cdm → getattr t.par n = getattr PyPar.default n) ∧
    ∀ b, t.par.bias.get b = (biasRedshifts (s.par.bias.get b)).zip (biasValues N (s.par.bias.get b)) := by
  obtain ⟨c1, c2, c3, c4, c5, -⟩ := toFile_opt h1
  obtain ⟨t1, t2, t3, t4, t5, e1, e2, e3, e4, e5, e6⟩ := fromFile_stages c3 c4 h2
  obtain ⟨b1, b2⟩ := biasLoop (X := fun b => biasRedshifts (s.par.bias.get b))
    (Y := fun b => biasValues N (s.par.bias.get b)) c5 _ e6
  have m1 : ∀ n, n ∈ o.floatArrays ↔ n ∈ floatArrayOptions := fun n => ho.floatArrays.mem_iff
  have m3 : ∀ n, n ∈ o.floats ↔ n ∈ floatOptions := fun n => ho.floats.mem_iff
  have m4 : ∀ n, n ∈ o.ints ↔ n ∈ intOptions := fun n => ho.ints.mem_iff
  have m5 : ∀ n, n ∈ o.choices ↔ n ∈ choiceOptions := fun n => ho.choices.mem_iff
  have hnd : floatArrayOptions.Nodup ∧ floatOptions.Nodup ∧ intOptions.Nodup ∧ choiceOptions.Nodup := options_nodup
  have d1 : ∀ m : Name, m ≠ .omega_cdm → ∀ n ∈ o.floatArrays, ¬ n.Drives m := fun m hm n hn =>
    not_drives (fun e => lists_no_cdm _ (by simp) (e ▸ (m1 n).1 hn)) hm
  have d2 : ∀ m : Name, m ≠ .omega_cdm → ∀ n ∈ [Name.l], ¬ n.Drives m := fun m hm n hn =>
    not_drives (fun e => lists_no_cdm [Name.l] (by simp) (e ▸ hn)) hm
  have d3 : ∀ m : Name, m ≠ .omega_cdm → ∀ n ∈ o.floats, ¬ n.Drives m := fun m hm n hn =>
    not_drives (fun e => lists_no_cdm floatOptions (by simp) (e ▸ (m3 n).1 hn)) hm
  have d4 : ∀ m : Name, m ≠ .omega_cdm → ∀ n ∈ o.ints, ¬ n.Drives m := fun m hm n hn =>
    not_drives (fun e => lists_no_cdm intOptions (by simp) (e ▸ (m4 n).1 hn)) hm
  have d5 : ∀ m : Name, m ≠ .omega_cdm → ∀ n ∈ o.choices, ¬ n.Drives m := fun m hm n hn =>
    not_drives (fun e => lists_no_cdm choiceOptions (by simp) (e ▸ (m5 n).1 hn)) hm
  have k1 : ∀ m : Name, m ≠ .omega_cdm → m ∉ floatArrayOptions → getattr t1.par m = getattr PyPar.default m :=
    fun m hm hn => (loop_keep e1).1 m (fun h => hn ((m1 m).1 h)) (d1 m hm)
  have k2 : ∀ m : Name, m ≠ .omega_cdm → m ∉ [Name.l] → getattr t2.par m = getattr t1.par m :=
    fun m hm hn => (loop_keep e2).1 m hn (d2 m hm)
  have k3 : ∀ m : Name, m ≠ .omega_cdm → m ∉ floatOptions → getattr t3.par m = getattr t2.par m :=
    fun m hm hn => (loop_keep e3).1 m (fun h => hn ((m3 m).1 h)) (d3 m hm)
  have k4 : ∀ m : Name, m ≠ .omega_cdm → m ∉ intOptions → getattr t4.par m = getattr t3.par m :=
    fun m hm hn => (loop_keep e4).1 m (fun h => hn ((m4 m).1 h)) (d4 m hm)
  have k5 : ∀ m : Name, m ≠ .omega_cdm → m ∉ choiceOptions → getattr t5.par m = getattr t4.par m :=
    fun m hm hn => (loop_keep e5).1 m (fun h => hn ((m5 m).1 h)) (d5 m hm)
  obtain ⟨D1, D2, D3, D4, D5⟩ := lists_disjoint
  have hall : ∀ b, b ∈ BiasName.order := by intro b; cases b <;> decide
  refine ⟨fun n hn => ?_, fun n hn hne => ?_, fun b => by rw [b2 b, if_pos (hall b)]⟩
  · have hcdm : n ≠ .omega_cdm := fun e => hn (by rw [e]; simp [Name.Lost])
    have hfft : n ≠ .integrals_fftlog_sampling := fun e => hn (by rw [e]; simp [Name.Lost])
    have hopt := c1 n hfft
    rw [b1 n]
    rcases read_somewhere n hn with h | rfl | h | h | h
    · obtain ⟨-, q3, q4, q5⟩ := D1 n h
      rw [k5 n hcdm q5, k4 n hcdm q4, k3 n hcdm q3, k2 n hcdm (D1 n h).1]
      left
      rcases hr : ((getattr s.par n).text.getfloatArray.map .floats : Except Err PyVal) with e | v
      · exact absurd hr (loop_reads e1 ((m1 n).2 h) hopt e)
      · refine back_floats h hr (loop_set (ho.floatArrays.nodup_iff.2 hnd.1) e1 ((m1 n).2 h) (d1 n hcdm) hopt hr ?_)
        rintro (rfl | rfl) <;> exact absurd h (by decide)
    · obtain ⟨q1, q3, q4, q5⟩ := D2 .l (by simp)
      rw [k5 _ hcdm q5, k4 _ hcdm q4, k3 _ hcdm q3]
      left
      rcases hr : (getattr s.par .l).text.getintArray with e | v
      · exact absurd hr (loop_reads e2 (by simp) hopt e)
      · refine back_l hr (loop_set (by simp) e2 (by simp) (d2 _ hcdm) hopt hr ?_)
        rintro (h | h) <;> cases h
    · obtain ⟨q1, q2, q4, q5⟩ := D3 n h
      rw [k5 n hcdm q5, k4 n hcdm q4]
      rcases hr : (getattr s.par n).text.getfloat with e | v
      · exact absurd hr (loop_reads e3 ((m3 n).2 h) hopt e)
      · have ha := loop_set (ho.floats.nodup_iff.2 hnd.2.1) e3 ((m3 n).2 h) (d3 n hcdm) hopt hr ?_
        · rw [k2 n hcdm q2, k1 n hcdm q1] at ha
          exact back_float h hr ha
        · rintro (rfl | rfl) x hx <;> rw [← Except.ok.inj hr] at hx <;>
            exact ⟨_, (PyVal.float.inj hx).symm⟩
    · obtain ⟨q1, q2, q3, q5⟩ := D4 n h
      rw [k5 n hcdm q5]
      left
      rcases hr : (getattr s.par n).text.getint with e | v
      · exact absurd hr (loop_reads e4 ((m4 n).2 h) hopt e)
      · have ha := loop_set (ho.ints.nodup_iff.2 hnd.2.2.1) e4 ((m4 n).2 h) (d4 n hcdm) hopt hr ?_
        · rw [k3 n hcdm q3, k2 n hcdm q2, k1 n hcdm q1] at ha
          exact back_int h hfft hr ha
        · rintro (rfl | rfl) <;> exact absurd h (by decide)
    · left
      rcases hr : (getattr s.par n).text.getintOrStr with e | v
      · exact absurd hr (loop_reads e5 ((m5 n).2 h) hopt e)
      · refine back_choice h hr (loop_set (ho.choices.nodup_iff.2 hnd.2.2.2) e5 ((m5 n).2 h) (d5 n hcdm) hopt hr ?_)
        rintro (rfl | rfl) <;> exact absurd h (by decide)
  · rw [b1 n]
    by_cases hfft : n = .integrals_fftlog_sampling
    · subst hfft
      obtain ⟨q1, q2, q3, q5⟩ := D4 .integrals_fftlog_sampling (by decide)
      rw [k5 _ hne q5, loop_skip e4 (d4 _ hne) c2, k3 _ hne q3, k2 _ hne q2, k1 _ hne q1]
    · obtain ⟨q1, q2, q3, q4, q5⟩ := lost_nowhere n hn hfft
      rw [k5 n hne q5, k4 n hne q4, k3 n hne q3, k2 n hne q2, k1 n hne q1]

end Coffe
