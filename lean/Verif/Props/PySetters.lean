import Verif.Proofs.PyIndep
import Verif.Proofs.PyValid
import Verif.Spec.WitnessPy
import Verif.Model.Python.Compute

/-!
# Properties of single assignments (C05, C33, C47)
-/

namespace Coffe
open Classical

/-- C05: an assignment either raises and leaves the whole object unchanged, or the value is allowed by the
documentation and reading the parameter gives it back.  Partial: `m_ncdm` is excluded while `h == 0`, and
fractions are excluded for the two parameters that take any integer. -/
theorem C05_setter_partial (n : Name) (v : PyVal) (s : PyObj) (hh : n = .m_ncdm → s.par.h ≠ 0)
    (hw : n.Whole v) :
    (∃ e, setattr n v s = (.error e, s)) ∨
    (∃ s', setattr n v s = (.ok (), s') ∧ n.doc.Accepted v (getattr s.par n) (getattr s'.par n)) := by
  have h := setattr_ends n v s hw
  unfold Ends at h
  rcases hx : setattr n v s with ⟨o, s'⟩
  rw [hx] at h
  cases o with
  | ok a => exact Or.inr ⟨s', rfl, h⟩
  | error e =>
    rcases h with rfl | ⟨hn, h0, -⟩
    · exact Or.inl ⟨e, rfl⟩
    · exact absurd h0 (hh hn)

/-- C05: an assignment that raises leaves the whole object unchanged (`m_ncdm` excluded while `h == 0`). -/
theorem C05_rejected_partial (n : Name) (v : PyVal) (s s' : PyObj) (e : Err)
    (hh : n = .m_ncdm → s.par.h ≠ 0) (h : setattr n v s = (.error e, s')) : s' = s := by
  by_cases hw : n.Whole v
  · rcases C05_setter_partial n v s hh hw with ⟨e', h'⟩ | ⟨t, h', -⟩ <;> rw [h'] at h <;> cases h
    rfl
  · exfalso
    unfold Name.Whole at hw
    push Not at hw
    obtain ⟨hn, x, rfl, -⟩ := hw
    rcases hn with rfl | rfl <;> cases h

/-- C05, exception: a fraction assigned to `l_max_g` is accepted, but reading gives another number. -/
theorem C05_truncated_false :
    ∃ s', setattr .l_max_g (.float 12.5) (fresh PyPar.default) = (.ok (), s') ∧
      getattr s'.par .l_max_g = .int 12 := by
  refine ⟨_, rfl, congrArg PyVal.int ?_⟩
  show truncInt 12.5 = 12
  unfold truncInt
  rw [if_pos (by norm_num)]
  norm_num [Int.floor_eq_iff]

/-- An assignment with a rejected value and one with an accepted value. -/
example : (∃ e, setattr .h (.float (-1)) (fresh PyPar.default) = (.error e, fresh PyPar.default)) ∧
    ∃ s', setattr .h (.float 0.5) (fresh PyPar.default) = (.ok (), s') ∧ getattr s'.par .h = .float 0.5 := by
  constructor
  · rcases C05_setter_partial .h (.float (-1)) (fresh PyPar.default) (by simp) (by simp [Name.Whole]) with h | ⟨s', -, x, hx, h0, -⟩
    · exact h
    · exfalso
      rcases hx with hx | ⟨n, hx, -⟩ | ⟨hx, -⟩ | ⟨hx, -⟩ <;> simp at hx
      subst hx
      norm_num at h0
  · obtain ⟨a, s', hs⟩ := setattr_valid (n := .h) (v := .float 0.5) (s := fresh PyPar.default) (old := .other)
      (new := .float 0.5) ⟨0.5, Or.inl rfl, by norm_num, by norm_num, Or.inl rfl⟩ (by simp) (by simp) (by simp)
    refine ⟨s', hs, ?_⟩
    rcases C05_setter_partial .h (.float 0.5) (fresh PyPar.default) (by simp) (by simp [Name.Whole]) with ⟨e, h⟩ | ⟨t, ht, x, hx, -, -, h⟩
    · rw [hs] at h; cases h
    · rw [hs] at ht
      cases ht
      rcases hx with hx | ⟨n, hx, -⟩ | ⟨hx, -⟩ | ⟨hx, -⟩ <;> simp at hx
      subst hx
      rcases h with h | ⟨-, y, hy, h⟩
      · exact h
      · exfalso
        have : y = 0.67 := by
          have : PyVal.float 0.67 = .float y := hy
          simpa using this.symm
        subst this
        norm_num [abs_of_neg, abs_of_pos] at h

/-- C05, exception: with `h == 0`, assigning `m_ncdm` raises `ZeroDivisionError` and yet changes the
object. -/
theorem C05_m_ncdm_false :
    ¬ ∀ (N : Num) (ops : List Op) (s : PyObj) (n : Name) (v : PyVal) (e : Err) (s' : PyObj),
      run N ops (fresh PyPar.default) = some s → setattr n v s = (.error e, s') → s' = s := by
  intro H
  have h0 : setattr .h (.int 0) (fresh PyPar.default) =
      (.ok (), PyObj.freeAll ((fresh PyPar.default).upd fun p => PyPar.balance { p with h := 0 })) := by
    unfold setattr guarded
    refine (Py.bind_ok (checkParameter_ok (x := 0) (by simp [PyVal.asKind]) le_rfl (by norm_num))).trans ?_
    refine (Py.bind_ok (Py.get_eq _)).trans ?_
    refine (congrFun (if_neg ?_) _).trans rfl
    show ¬ allclose 0 (0.67 : ℝ)
    unfold allclose
    norm_num [abs_of_neg, abs_of_pos]
  set s0 := PyObj.freeAll ((fresh PyPar.default).upd fun p => PyPar.balance { p with h := 0 }) with hs0
  have hr : run wNum [.setattr (.settable .h) (.int 0)] (fresh PyPar.default) = some s0 := by
    have : exec wNum (.setattr (.settable .h) (.int 0)) (fresh PyPar.default) = (.ok .unit, s0) := Py.bind_ok h0
    unfold run
    rw [this]
    rfl
  have h1 : setattr .m_ncdm (.float 1) s0 =
      (.error .zeroDivision, s0.upd fun p => { p with m_ncdm := 1 }) := by
    unfold setattr guarded
    refine (Py.bind_ok (checkParameter_ok (x := 1) (by simp [PyVal.asKind]) (by norm_num) (by norm_num))).trans ?_
    refine (Py.bind_ok (Py.get_eq _)).trans ?_
    refine (congrFun (if_neg ?_) _).trans ?_
    · show ¬ allclose 1 (0 : ℝ)
      unfold allclose
      norm_num
    · have hh : (s0.upd fun p => { p with m_ncdm := 1 }).par.h = 0 := rfl
      show ((do
            let s ← Py.get
            if s.par.h = 0 then Py.raise .zeroDivision
            else store (fun p => PyPar.balance { p with
              Omega0_nu := 1 / 93.14 / p.h / p.h
              Omega0_cdm := p.Omega0_m - p.Omega0_baryon - 1 / 93.14 / p.h / p.h }) PyObj.freeAll : Py Unit)
            (s0.upd fun p => { p with m_ncdm := 1 })) = _
      refine (Py.bind_ok (Py.get_eq _)).trans ?_
      exact congrFun (if_pos hh) _
  have h2 := H wNum _ s0 .m_ncdm (.float 1) _ _ hr h1
  have h3 := congrArg (fun s : PyObj => s.par.m_ncdm) h2
  have h4 : (1 : ℝ) = 0 := h3
  norm_num at h4

/-- C05, converse: a documented value is accepted (densities may still be refused when they would not add
up, and `m_ncdm` while `h == 0`). -/
theorem C05_valid_accepted_partial (n : Name) (v old new : PyVal) (s : PyObj)
    (h : n.doc.Accepted v old new) (h1 : n ≠ .integrals_fftlog_sampling)
    (h2 : n = .m_ncdm → s.par.h ≠ 0)
    (h3 : n ≠ .omega_cdm ∧ n ≠ .omega_m ∧ n ≠ .omega_baryon ∧ n ≠ .omega_gamma) :
    ∃ s', setattr n v s = (.ok (), s') :=
  let ⟨_, s', hs⟩ := setattr_valid h h1 h2 h3
  ⟨s', hs⟩

/-- C05, exception: `integrals_fftlog_sampling` is documented as settable, but no assignment to it ever
succeeds. -/
theorem C05_fftlog_sampling_false (v : PyVal) (s : PyObj) :
    ∃ e, setattr .integrals_fftlog_sampling v s = (.error e, s) := by
  have h := checkInt_ends v 0 1000000 s
  unfold Ends at h
  unfold setattr
  dsimp only
  rw [Py.bind_eq]
  rcases hx : checkInt v 0 1000000 s with ⟨o, s'⟩
  rw [hx] at h
  cases o with
  | error e => exact ⟨e, by dsimp only; rw [h]⟩
  | ok a => exact ⟨.attributeError, by dsimp only; rw [h.1]; rfl⟩

/-! ## List parameters -/

/-- The list parameters of real numbers. -/
def listParameters : List Name :=
  [.sep, .mu, .z_mean, .z_min, .z_max, .deltaz, .number_density1, .number_density2, .pixelsize, .fsky]

/-- What the documentation allows for the entries of a list parameter. -/
def entryOk : Name → ℝ → Prop
  | .sep => fun x => 0 < x ∧ x < 10000
  | .mu => fun x => -1 < x ∧ x < 1
  | .pixelsize => fun x => 0 < x ∧ x < 1000
  | .fsky => fun x => 0 < x ∧ x ≤ 1
  | _ => fun x => 0 ≤ x ∧ x < 10

/-- C33: assigning a list of reals to a list parameter gives exactly that list back when all entries are
in range, and otherwise raises and changes nothing; lists of any length, in any state. -/
theorem C33_list_round_trip (n : Name) (hn : n ∈ listParameters) (l : List ℝ) (s : PyObj) :
    ((∀ x ∈ l, entryOk n x) → ∃ s', setattr n (.floats l) s = (.ok (), s') ∧
      getattr s'.par n = .floats l) ∧
    ((∃ x ∈ l, ¬ entryOk n x) → ∃ e, setattr n (.floats l) s = (.error e, s)) := by
  have hdoc : n.doc = .reals (entryOk n) := by
    simp only [listParameters, List.mem_cons, List.not_mem_nil, or_false] at hn
    rcases hn with rfl | rfl | rfl | rfl | rfl | rfl | rfl | rfl | rfl | rfl <;> rfl
  have hne : n ≠ .m_ncdm := by rintro rfl; simp [listParameters] at hn
  have hset : ∀ s' : PyObj, n.doc.Accepted (.floats l) (getattr s.par n) (getattr s'.par n) →
      (∀ x ∈ l, entryOk n x) ∧ getattr s'.par n = .floats l := by
    intro s' h
    rw [hdoc] at h
    obtain ⟨l', h1, h2, h3⟩ := h
    rcases h1 with h1 | ⟨ns, h1, -⟩
    · cases h1
      exact ⟨h2, h3⟩
    · cases h1
  have h := C05_setter_partial n (.floats l) s (fun h => absurd h hne) (fun _ x hx => by cases hx)
  constructor
  · intro ho
    obtain ⟨a, s', hs⟩ := setattr_valid (n := n) (v := .floats l) (s := s) (old := .other)
      (new := .floats l) (by rw [hdoc]; exact ⟨l, Or.inl rfl, ho, rfl⟩)
      (by rintro rfl; simp [listParameters] at hn) (fun h => absurd h hne)
      (by refine ⟨?_, ?_, ?_, ?_⟩ <;> rintro rfl <;> simp [listParameters] at hn)
    rcases h with ⟨e, h⟩ | ⟨t, ht, hacc⟩
    · rw [hs] at h; cases h
    · exact ⟨t, ht, (hset t hacc).2⟩
  · rintro ⟨x, hx, hno⟩
    rcases h with ⟨e, h⟩ | ⟨t, ht, hacc⟩
    · exact ⟨e, h⟩
    · exact absurd ((hset t hacc).1 x hx) hno

/-- C33 for the multipoles `l`. -/
theorem C33_multipoles_round_trip (l : List ℤ) (s : PyObj) :
    ((∀ n ∈ l, 0 ≤ n ∧ n < 10) → ∃ s', setattr .l (.ints l) s = (.ok (), s') ∧
      getattr s'.par .l = .ints l) ∧
    ((∃ n ∈ l, ¬ (0 ≤ n ∧ n < 10)) → ∃ e, setattr .l (.ints l) s = (.error e, s)) := by
  have h := C05_setter_partial .l (.ints l) s (by simp) (fun _ x hx => by cases hx)
  have hset : ∀ s' : PyObj, Name.l.doc.Accepted (.ints l) (getattr s.par .l) (getattr s'.par .l) →
      (∀ n ∈ l, 0 ≤ n ∧ n < 10) ∧ getattr s'.par .l = .ints l := by
    rintro s' ⟨l', h1 | ⟨h1, -⟩, h2, h3⟩
    · cases h1
      exact ⟨h2, h3⟩
    · cases h1
  constructor
  · intro ho
    obtain ⟨a, s', hs⟩ := setattr_valid (n := .l) (v := .ints l) (s := s) (old := .other)
      (new := .ints l) ⟨l, Or.inl rfl, ho, rfl⟩ (by simp) (by simp) (by simp)
    rcases h with ⟨e, h⟩ | ⟨t, ht, hacc⟩
    · rw [hs] at h; cases h
    · exact ⟨t, ht, (hset t hacc).2⟩
  · rintro ⟨x, hx, hno⟩
    rcases h with ⟨e, h⟩ | ⟨t, ht, hacc⟩
    · exact ⟨e, h⟩
    · exact absurd ((hset t hacc).1 x hx) hno

/-- Reading after several assignments: the last accepted list assigned to `n` is what is read, whatever
is assigned to other parameters afterwards (C33 over histories). -/
theorem C33_history (n : Name) (hn : n ∈ listParameters) (l : List ℝ) (hl : ∀ x ∈ l, entryOk n x)
    (s : PyObj) (later : List (Name × PyVal)) (hlater : ∀ a ∈ later, a.1 ≠ n) :
    getattr (later.foldl (fun t a => (setattr a.1 a.2 t).2) (setattr n (.floats l) s).2).par n =
      .floats l := by
  obtain ⟨s', hs, hr⟩ := (C33_list_round_trip n hn l s).1 hl
  rw [hs]
  dsimp only
  clear hs
  induction later generalizing s' with
  | nil => exact hr
  | cons a later ih =>
    rw [List.foldl_cons]
    refine ih (fun b hb => hlater b (List.mem_cons_of_mem _ hb)) _ ?_
    have ha : a.1 ≠ n := hlater a List.mem_cons_self
    have hd : ¬ a.1.Drives n := by
      simp only [listParameters, List.mem_cons, List.not_mem_nil, or_false] at hn
      rcases hn with rfl | rfl | rfl | rfl | rfl | rfl | rfl | rfl | rfl | rfl <;>
        cases a.1 <;> exact id
    have := setattr_post a.1 a.2 s' (fun t => getattr t.par n = .floats l) hr
      fun t ht => (stores_indep ht n ha.symm hd).trans hr
    exact this

example : ∃ s', setattr .sep (.floats [3, 1, 2]) (fresh PyPar.default) = (.ok (), s') ∧
    getattr s'.par .sep = .floats [3, 1, 2] :=
  (C33_list_round_trip .sep (by simp [listParameters]) _ _).1
    (by simp [entryOk]; norm_num)

/-! ## Independence -/

/-- C47: an assignment, accepted or not, changes the reading of no other parameter; only the densities
`omega_m` and `omega_cdm` follow assignments to the other densities. -/
theorem C47_assignments_independent (n m : Name) (v : PyVal) (s : PyObj) (hm : m ≠ n)
    (hd : ¬ n.Drives m) : getattr (setattr n v s).2.par m = getattr s.par m :=
  setattr_post n v s (fun t => getattr t.par m = getattr s.par m) rfl
    fun _ ht => stores_indep ht m hm hd

example : getattr (setattr .sep (.floats [3]) (fresh PyPar.default)).2.par .h = .float 0.67 :=
  C47_assignments_independent .sep .h _ _ (by simp) (fun h => h)

end Coffe
