import Verif.Spec.File
import Verif.Props.PyBulk

/-! # Helper lemmas: saving and loading settings -/

namespace Coffe
open Classical

theorem setattr_ok_accepted {n : Name} {v : PyVal} {s t : PyObj} {u : Unit} (h : setattr n v s = (.ok u, t))
    (hw : n.Whole v) : n.doc.Accepted v (getattr s.par n) (getattr t.par n) := by
  have := setattr_ends n v s hw
  unfold Ends at this
  rw [h] at this
  exact this

set_option maxHeartbeats 1000000 in
theorem stores_bias {n : Name} {p p' : PyPar} (h : Stores n p p') : p'.bias = p.bias := by
  cases n
  case integrals_fftlog_sampling => exact h.elim
  case m_ncdm => obtain ⟨x, rfl | rfl⟩ := h <;> rfl
  all_goals
    obtain ⟨x, rfl⟩ := h
    rfl

theorem setattr_bias (n : Name) (v : PyVal) (s : PyObj) : (setattr n v s).2.par.bias = s.par.bias :=
  setattr_post n v s (fun t => t.par.bias = s.par.bias) rfl fun _ ht => stores_bias ht

theorem not_drives {n m : Name} (hn : n ≠ .omega_cdm) (hm : m ≠ .omega_cdm) : ¬ n.Drives m := by
  cases n <;> cases m <;> first | exact absurd rfl hn | exact absurd rfl hm | exact id

/-- Split a successful sequence. -/
theorem Py.bind_done {α β : Type} {m : Py α} {f : α → Py β} {s t : PyObj} {b : β}
    (h : (m >>= f) s = (.ok b, t)) : ∃ a u, m s = (.ok a, u) ∧ f a u = (.ok b, t) := by
  rw [Py.bind_eq] at h
  rcases hx : m s with ⟨o, u⟩
  rw [hx] at h
  cases o with
  | error e => cases h
  | ok a => exact ⟨a, u, rfl, h⟩

theorem Py.forM_done {α : Type} {f : α → Py Unit} {a : α} {l : List α} {s t : PyObj} {u : Unit}
    (h : ((a :: l).forM f : Py Unit) s = (.ok u, t)) :
    ∃ s', f a s = (.ok (), s') ∧ (l.forM f : Py Unit) s' = (.ok u, t) := by
  have h : (f a >>= fun _ => (l.forM f : Py Unit)) s = (.ok u, t) := h
  obtain ⟨_, s', h1, h2⟩ := Py.bind_done h
  exact ⟨s', h1, h2⟩

theorem readOption_done {c : Config} {r : Txt → Except Err PyVal} {n : Name} {s t : PyObj} {u : Unit}
    (h : readOption c r n s = (.ok u, t)) :
    (c.opt n = none ∧ t = s) ∨ ∃ x v, c.opt n = some x ∧ r x = .ok v ∧ setattr n v s = (.ok (), t) := by
  unfold readOption at h
  cases ho : c.opt n with
  | none => rw [ho] at h; cases h; exact Or.inl ⟨rfl, rfl⟩
  | some x =>
    rw [ho] at h
    dsimp only at h
    cases hr : r x with
    | error e => rw [hr] at h; cases h
    | ok v => rw [hr] at h; exact Or.inr ⟨x, v, rfl, hr, h⟩

theorem readOption_keep {c : Config} {r : Txt → Except Err PyVal} {n : Name} {s t : PyObj} {u : Unit}
    (h : readOption c r n s = (.ok u, t)) :
    (∀ m, m ≠ n → ¬ n.Drives m → getattr t.par m = getattr s.par m) ∧ t.par.bias = s.par.bias := by
  rcases readOption_done h with ⟨-, rfl⟩ | ⟨x, v, -, -, hs⟩
  · exact ⟨fun _ _ _ => rfl, rfl⟩
  · constructor
    · intro m hm hd
      have := C47_assignments_independent n m v s hm hd
      rw [hs] at this
      exact this
    · have := setattr_bias n v s
      rw [hs] at this
      exact this

theorem loop_keep {c : Config} {r : Txt → Except Err PyVal} {l : List Name} : ∀ {s t : PyObj} {u : Unit},
    (l.forM (readOption c r) : Py Unit) s = (.ok u, t) →
    (∀ m, m ∉ l → (∀ n ∈ l, ¬ n.Drives m) → getattr t.par m = getattr s.par m) ∧ t.par.bias = s.par.bias := by
  induction l with
  | nil => intro s t u h; cases h; exact ⟨fun _ _ _ => rfl, rfl⟩
  | cons n l ih =>
    intro s t u h
    obtain ⟨s', h1, h2⟩ := Py.forM_done h
    obtain ⟨k1, b1⟩ := readOption_keep h1
    obtain ⟨k2, b2⟩ := ih h2
    refine ⟨fun m hm hd => ?_, b2.trans b1⟩
    simp only [List.mem_cons, not_or] at hm
    rw [k2 m hm.2 fun n hn => hd n (List.mem_cons_of_mem _ hn)]
    exact k1 m hm.1 (hd n List.mem_cons_self)

theorem loop_set {c : Config} {r : Txt → Except Err PyVal} {l : List Name} (hl : l.Nodup) :
    ∀ {s t : PyObj} {u : Unit}, (l.forM (readOption c r) : Py Unit) s = (.ok u, t) →
    ∀ {m : Name} {x : Txt} {v : PyVal}, m ∈ l → (∀ n ∈ l, ¬ n.Drives m) → c.opt m = some x → r x = .ok v →
    m.Whole v → m.doc.Accepted v (getattr s.par m) (getattr t.par m) := by
  induction l with
  | nil => intro s t u h m x v hm; cases hm
  | cons n l ih =>
    intro s t u h m x v hm hd ho hr hw
    obtain ⟨s', h1, h2⟩ := Py.forM_done h
    rw [List.nodup_cons] at hl
    have hd' : ∀ n ∈ l, ¬ n.Drives m := fun n hn => hd n (List.mem_cons_of_mem _ hn)
    by_cases hmn : m = n
    · subst hmn
      rw [(loop_keep h2).1 m hl.1 hd']
      rcases readOption_done h1 with ⟨h3, -⟩ | ⟨x', v', h3, h4, h5⟩
      · rw [h3] at ho; cases ho
      · rw [h3] at ho; cases ho
        rw [hr] at h4; cases h4
        exact setattr_ok_accepted h5 hw
    · have hm' : m ∈ l := (List.mem_cons.1 hm).resolve_left hmn
      have := ih hl.2 h2 hm' hd' ho hr hw
      rwa [(readOption_keep h1).1 m hmn (hd n List.mem_cons_self)] at this

theorem loop_reads {c : Config} {r : Txt → Except Err PyVal} {l : List Name} :
    ∀ {s t : PyObj} {u : Unit}, (l.forM (readOption c r) : Py Unit) s = (.ok u, t) →
    ∀ {m : Name} {x : Txt}, m ∈ l → c.opt m = some x → ∀ e, r x ≠ .error e := by
  induction l with
  | nil => intro s t u h m x hm; cases hm
  | cons n l ih =>
    intro s t u h m x hm ho e he
    obtain ⟨s', h1, h2⟩ := Py.forM_done h
    rcases List.mem_cons.1 hm with rfl | hm
    · rcases readOption_done h1 with ⟨h3, -⟩ | ⟨x', v', h3, h4, -⟩
      · rw [h3] at ho; cases ho
      · rw [h3] at ho; cases ho
        rw [he] at h4; cases h4
    · exact ih h2 hm ho e he

theorem loop_skip {c : Config} {r : Txt → Except Err PyVal} {l : List Name} :
    ∀ {s t : PyObj} {u : Unit}, (l.forM (readOption c r) : Py Unit) s = (.ok u, t) →
    ∀ {m : Name}, (∀ n ∈ l, ¬ n.Drives m) → c.opt m = none → getattr t.par m = getattr s.par m := by
  induction l with
  | nil => intro s t u h m _ _; cases h; rfl
  | cons n l ih =>
    intro s t u h m hd ho
    obtain ⟨s', h1, h2⟩ := Py.forM_done h
    rw [ih h2 (fun n hn => hd n (List.mem_cons_of_mem _ hn)) ho]
    by_cases hmn : m = n
    · subst hmn
      rcases readOption_done h1 with ⟨-, rfl⟩ | ⟨x', v', h3, -, -⟩
      · rfl
      · rw [ho] at h3; cases h3
    · exact (readOption_keep h1).1 m hmn (hd n List.mem_cons_self)

/-! ## The file -/

theorem toFile_opt {N : Num} {s s' : PyObj} {c : Config} (h : toFile N s = (.ok c, s')) :
    (∀ n, n ≠ .integrals_fftlog_sampling → c.opt n = some (getattr s.par n).text) ∧
    c.opt .integrals_fftlog_sampling = none ∧ (∀ l, c.legacy l = none) ∧ c.contributions = none ∧
    (∀ b, c.bias b = ⟨none, none, none, some (.floats (biasRedshifts (s.par.bias.get b))),
      some (.floats (biasValues N (s.par.bias.get b)))⟩) ∧ s'.par = s.par := by
  obtain ⟨ps, u, h1, h2⟩ := Py.bind_done h
  have hp : u.par = s.par := by
    have := (C07_parameters_partial s).1
    rw [h1] at this
    exact this
  have hl := (C07_parameters_partial s).2 ps (by rw [h1])
  cases h2
  have hlook : ∀ (ns : List Name) (n : Name), (ns.map fun n => (n, getattr s.par n)).lookup n =
      if n ∈ ns then some (getattr s.par n) else none := by
    intro ns n
    induction ns with
    | nil => rfl
    | cons a ns ih =>
      rw [List.map_cons, List.lookup_cons, ih]
      by_cases hna : n = a
      · subst hna; simp
      · have : (n == a) = false := by simpa using hna
        rw [this]
        simp [hna]
  have hall : ∀ n, n ∈ Name.all := by intro n; cases n <;> decide
  refine ⟨fun n hn => ?_, ?_, fun _ => rfl, rfl, fun b => ?_, hp⟩
  · show (ps.lookup n).map PyVal.text = _
    rw [hl, hlook, if_pos (List.mem_filter.2 ⟨hall n, by simpa using hn⟩)]
    rfl
  · show (ps.lookup _).map PyVal.text = _
    rw [hl, hlook, if_neg (by simp)]
    rfl
  · show BiasOptions.mk none none none (some (.floats (biasRedshifts (s'.par.bias.get b))))
      (some (.floats (biasValues N (s'.par.bias.get b)))) = _
    rw [hp]

/-- The stages of loading a file without old options. -/
theorem fromFile_stages {o : SetOrder} {c : Config} {t : PyObj} (hl : ∀ l, c.legacy l = none)
    (hc : c.contributions = none) (h : fromFile o c = .ok t) : ∃ t1 t2 t3 t4 t5,
    (o.floatArrays.forM (readOption c fun t => t.getfloatArray.map .floats) : Py Unit) (fresh PyPar.default) =
      (.ok (), t1) ∧
    ([Name.l].forM (readOption c Txt.getintArray) : Py Unit) t1 = (.ok (), t2) ∧
    (o.floats.forM (readOption c Txt.getfloat) : Py Unit) t2 = (.ok (), t3) ∧
    (o.ints.forM (readOption c Txt.getint) : Py Unit) t3 = (.ok (), t4) ∧
    (o.choices.forM (readOption c Txt.getintOrStr) : Py Unit) t4 = (.ok (), t5) ∧
    (BiasName.order.forM (readBias c) : Py Unit) t5 = (.ok (), t) := by
  unfold fromFile at h
  rcases hx : readConfig o c (fresh PyPar.default) with ⟨r, t'⟩
  rw [hx] at h
  cases r with
  | error e => cases h
  | ok u =>
    cases h
    unfold readConfig at hx
    have hleg : ∀ (l : List Legacy) (s : PyObj), (l.forM (readLegacy c) : Py Unit) s = (.ok (), s) := by
      intro l
      induction l with
      | nil => intro s; rfl
      | cons a l ih =>
        intro s
        show (readLegacy c a >>= fun _ => (l.forM (readLegacy c) : Py Unit)) s = _
        rw [Py.bind_eq]
        have : readLegacy c a s = (.ok (), s) := by unfold readLegacy; rw [hl]; rfl
        rw [this]
        exact ih s
    have hcon : ∀ s, readContributions c s = (.ok (), s) := by
      intro s; unfold readContributions; rw [hc]; rfl
    obtain ⟨_, t0, h0, hx⟩ := Py.bind_done hx
    rw [hleg] at h0; cases h0
    obtain ⟨_, t0, h0, hx⟩ := Py.bind_done hx
    rw [hcon] at h0; cases h0
    obtain ⟨_, t1, h1, hx⟩ := Py.bind_done hx
    obtain ⟨_, t2, h2, hx⟩ := Py.bind_done hx
    obtain ⟨_, t3, h3, hx⟩ := Py.bind_done hx
    obtain ⟨_, t4, h4, hx⟩ := Py.bind_done hx
    obtain ⟨_, t5, h5, hx⟩ := Py.bind_done hx
    exact ⟨t1, t2, t3, t4, t5, h1, h2, h3, h4, h5, hx⟩

/-! ## Biases -/

theorem checkSpline_done {x y : List ℝ} {s s' : PyObj} {sp : Samples}
    (h : checkSpline x y s = (.ok sp, s')) : sp = x.zip y ∧ s' = s := by
  unfold checkSpline at h
  by_cases h1 : ¬ sortedUpToTolerance x
  · rw [if_pos h1] at h; cases h
  rw [if_neg h1] at h
  by_cases h2 : x.length ≠ y.length
  · rw [if_pos h2] at h; cases h
  rw [if_neg h2] at h
  cases hx : x.head? with
  | none => rw [hx] at h; cases h
  | some a =>
    cases hy : x.getLast? with
    | none => rw [hx, hy] at h; cases h
    | some b =>
      rw [hx, hy] at h
      dsimp only at h
      by_cases h3 : a < 0
      · rw [if_pos h3] at h; cases h
      rw [if_neg h3] at h
      by_cases h4 : b > 15
      · rw [if_pos h4] at h; cases h
      rw [if_neg h4] at h
      by_cases h5 : x.length < 5 ∨ ¬ x.Pairwise (· < ·)
      · rw [if_pos h5] at h; cases h
      rw [if_neg h5] at h
      cases h
      exact ⟨rfl, rfl⟩

theorem setBias_done {b : BiasName} {x y : List ℝ} {s t : PyObj} {u : Unit}
    (h : setBias b x y s = (.ok u, t)) :
    t.par = { s.par with bias := s.par.bias.put b (x.zip y) } := by
  obtain ⟨sp, s', h1, h2⟩ := Py.bind_done h
  obtain ⟨rfl, rfl⟩ := checkSpline_done h1
  have := (Prod.mk.inj h2).2
  rw [← this]
  rfl

theorem put_get (B : Biases) (b b' : BiasName) (x : Samples) :
    (B.put b x).get b' = if b' = b then x else B.get b' := by
  cases b <;> cases b' <;> rfl

theorem getattr_bias (p : PyPar) (B : Biases) (n : Name) : getattr { p with bias := B } n = getattr p n := by
  cases n <;> rfl

theorem readBias_done {c : Config} {b : BiasName} {X Y : List ℝ} {s t : PyObj} {u : Unit}
    (hc : c.bias b = ⟨none, none, none, some (.floats X), some (.floats Y)⟩)
    (h : readBias c b s = (.ok u, t)) : t.par = { s.par with bias := s.par.bias.put b (X.zip Y) } := by
  unfold readBias at h
  rw [hc] at h
  simp only [Option.isSome_none, Bool.false_eq_true, if_false] at h
  cases X with
  | nil => cases h
  | cons x X =>
    cases Y with
    | nil => cases h
    | cons y Y => exact setBias_done h

theorem biasLoop {c : Config} {X Y : BiasName → List ℝ}
    (hc : ∀ b, c.bias b = ⟨none, none, none, some (.floats (X b)), some (.floats (Y b))⟩) :
    ∀ (l : List BiasName) {s t : PyObj} {u : Unit}, (l.forM (readBias c) : Py Unit) s = (.ok u, t) →
    (∀ n, getattr t.par n = getattr s.par n) ∧
    ∀ b, t.par.bias.get b = if b ∈ l then (X b).zip (Y b) else s.par.bias.get b := by
  intro l
  induction l with
  | nil => intro s t u h; cases h; exact ⟨fun _ => rfl, fun b => rfl⟩
  | cons a l ih =>
    intro s t u h
    obtain ⟨s', h1, h2⟩ := Py.forM_done h
    have h3 := readBias_done (hc a) h1
    obtain ⟨i1, i2⟩ := ih h2
    refine ⟨fun n => (i1 n).trans (by rw [h3, getattr_bias]), fun b => ?_⟩
    rw [i2 b, h3]
    dsimp only
    rw [put_get]
    by_cases hb : b = a
    · subst hb; simp
    · simp [hb]

end Coffe
