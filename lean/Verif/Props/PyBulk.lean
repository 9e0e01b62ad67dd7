import Verif.Props.PySetters
import Verif.Proofs.PyNoAttr
import Verif.Props.PyDensity
import Verif.Props.PyCaches
import Verif.Spec.PyBulk

/-!
# Properties of the bulk update and of reading all parameters (C06, C07)
-/

namespace Coffe
open Classical

theorem setAll_split (kvs : List (Attr × PyVal)) (hk : ∀ kv ∈ kvs, kv.1 ≠ .unknown) : ∀ s : PyObj,
    match (kvs.forM fun kv => setAttr kv.1 kv.2 : Py Unit) s with
    | (.ok _, t) => Assigned s kvs t
    | (.error e, t) => ∃ before a v after u, kvs = before ++ (a, v) :: after ∧ Assigned s before u ∧
        setAttr a v u = (.error e, t) := by
  induction kvs with
  | nil => intro s; exact Assigned.nil s
  | cons kv kvs ih =>
    intro s
    obtain ⟨a, v⟩ := kv
    simp only [List.forM]
    rw [Py.bind_eq]
    rcases hx : setAttr a v s with ⟨o, t⟩
    cases o with
    | error e => exact ⟨[], a, v, kvs, s, rfl, Assigned.nil s, hx⟩
    | ok u =>
      dsimp only
      have ha : ∃ n, a = .settable n := by
        cases a with
        | settable n => exact ⟨n, rfl⟩
        | readonly => cases hx
        | unknown => cases hx
      obtain ⟨n, rfl⟩ := ha
      have h := ih (fun kv h => hk kv (List.mem_cons_of_mem _ h)) t
      rcases hy : (kvs.forM fun kv => setAttr kv.1 kv.2 : Py Unit) t with ⟨o, w⟩
      rw [hy] at h
      cases o with
      | ok _ => exact Assigned.cons hx h
      | error e =>
        obtain ⟨before, a, v', after, u', h1, h2, h3⟩ := h
        exact ⟨(.settable n, v) :: before, a, v', after, u', by rw [h1]; rfl, Assigned.cons hx h2, h3⟩

/-- C06: `set_parameters` applies every entry when it returns; an unknown key is noticed before anything is
changed; otherwise, when it raises, exactly the entries before the offending one have been applied.  Missing
(false): the entries before the offending one should not have been applied either. -/
theorem C06_set_parameters_partial (kvs : List (Attr × PyVal)) (s : PyObj) :
    ((∃ kv ∈ kvs, kv.1 = .unknown) → setParameters kvs s = (.error .attributeError, s)) ∧
    ((∀ kv ∈ kvs, kv.1 ≠ .unknown) →
      (∃ t, setParameters kvs s = (.ok (), t) ∧ Assigned s kvs t) ∨
      (∃ e t, setParameters kvs s = (.error e, t) ∧ ∃ before a v after u,
        kvs = before ++ (a, v) :: after ∧ Assigned s before u ∧ setAttr a v u = (.error e, t))) := by
  have hany : (kvs.any (fun kv => match kv.1 with | .unknown => true | _ => false) = true) ↔
      ∃ kv ∈ kvs, kv.1 = .unknown := by
    rw [List.any_eq_true]
    refine exists_congr fun kv => and_congr_right fun _ => ?_
    cases kv.1 <;> simp
  constructor
  · intro h
    unfold setParameters
    split_ifs with hc
    · rfl
    · exact absurd (hany.2 h) hc
  · intro h
    have h' : ¬ ∃ kv ∈ kvs, kv.1 = .unknown := by push Not; exact h
    have he : setParameters kvs s = (kvs.forM fun kv => setAttr kv.1 kv.2 : Py Unit) s := by
      unfold setParameters
      split_ifs with hc
      · exact absurd (hany.1 hc) h'
      · rfl
    rw [he]
    have := setAll_split kvs h s
    rcases hx : (kvs.forM fun kv => setAttr kv.1 kv.2 : Py Unit) s with ⟨o, t⟩
    rw [hx] at this
    cases o with
    | ok a => exact Or.inl ⟨t, rfl, this⟩
    | error e => exact Or.inr ⟨e, t, rfl, this⟩

/-- C06 for dictionaries with one entry: all or nothing (`m_ncdm` excluded while `h == 0`). -/
theorem C06_single_entry_partial (n : Name) (v : PyVal) (s : PyObj) (hh : n = .m_ncdm → s.par.h ≠ 0) :
    (∃ t, setParameters [(.settable n, v)] s = (.ok (), t) ∧ Assigned s [(.settable n, v)] t) ∨
    (∃ e, setParameters [(.settable n, v)] s = (.error e, s)) := by
  rcases (C06_set_parameters_partial [(.settable n, v)] s).2 (by simp) with h | ⟨e, t, h, b, a, v', af, u, h1, h2, h3⟩
  · exact Or.inl h
  · right
    rw [h]
    cases b with
    | nil =>
      simp only [List.nil_append, List.cons.injEq, Prod.mk.injEq] at h1
      obtain ⟨⟨rfl, rfl⟩, -⟩ := h1
      cases h2
      have h3' : setattr n v s = (.error e, t) := h3
      rw [C05_rejected_partial n v s t e hh h3']
      exact ⟨_, rfl⟩
    | cons b bs =>
      exfalso
      have := congrArg List.length h1
      simp at this

/-- C06: after a successful `set_parameters` with distinct keys, none of them a density, every entry can be
read back (fractions given where any integer is allowed excluded, see C05). -/
theorem C06_all_applied (kvs : List (Name × PyVal)) (s t : PyObj)
    (hd : (kvs.map Prod.fst).Nodup) (hn : ∀ kv ∈ kvs, ¬ kv.1.density)
    (hw : ∀ kv ∈ kvs, kv.1.Whole kv.2)
    (h : setParameters (kvs.map fun kv => (.settable kv.1, kv.2)) s = (.ok (), t)) :
    ∀ kv ∈ kvs, kv.1.doc.Accepted kv.2 (getattr s.par kv.1) (getattr t.par kv.1) := by
  have hA : Assigned s (kvs.map fun kv => (.settable kv.1, kv.2)) t := by
    rcases (C06_set_parameters_partial (kvs.map fun kv => (.settable kv.1, kv.2)) s).2
      (by intro kv hkv; obtain ⟨a, -, rfl⟩ := List.mem_map.1 hkv; simp) with ⟨t', h1, h2⟩ | ⟨e, t', h1, -⟩
    · rw [h] at h1; cases h1; exact h2
    · rw [h] at h1; cases h1
  clear h
  have hdr : ∀ a m : Name, ¬ a.density → ¬ a.Drives m := by
    intro a m ha
    cases a <;> first | exact absurd trivial ha | exact id
  have hkeep : ∀ (kvs : List (Name × PyVal)) (s : PyObj) (m : Name), (∀ kv ∈ kvs, ¬ kv.1.density) →
      m ∉ kvs.map Prod.fst → Assigned s (kvs.map fun kv => (.settable kv.1, kv.2)) t →
      getattr t.par m = getattr s.par m := by
    intro kvs
    induction kvs with
    | nil => intro s m _ _ hA; cases hA; rfl
    | cons kv kvs ih =>
      intro s m hn hm hA
      obtain ⟨n, v⟩ := kv
      cases hA with
      | cons h1 h2 =>
        rename_i u
        simp only [List.map_cons, List.mem_cons, not_or] at hm
        rw [ih u m (fun kv h => hn kv (List.mem_cons_of_mem _ h)) hm.2 h2]
        have := C47_assignments_independent n m v s hm.1 (hdr n m (hn _ List.mem_cons_self))
        rw [h1] at this
        exact this
  induction kvs generalizing s with
  | nil => intro kv hkv; cases hkv
  | cons kv kvs ih =>
    obtain ⟨n, v⟩ := kv
    simp only [List.map_cons, List.nodup_cons] at hd
    cases hA with
    | cons h1 h2 =>
      rename_i u
      intro kv hkv
      rcases List.mem_cons.1 hkv with rfl | hkv'
      · have hk := hkeep kvs u n (fun kv h => hn kv (List.mem_cons_of_mem _ h)) hd.1 h2
        dsimp only
        rw [hk]
        have hne : n ≠ .m_ncdm := by
          rintro rfl
          exact hn _ List.mem_cons_self trivial
        rcases C05_setter_partial n v s (fun h => absurd h hne)
            (hw _ List.mem_cons_self) with ⟨e, h3⟩ | ⟨u', h3, h4⟩
        · rw [h1] at h3; cases h3
        · rw [h1] at h3; cases h3; exact h4
      · have := ih u hd.2 (fun kv h => hn kv (List.mem_cons_of_mem _ h))
          (fun kv h => hw kv (List.mem_cons_of_mem _ h)) h2 kv hkv'
        have hne : kv.1 ≠ n := by
          intro e
          exact hd.1 (e ▸ List.mem_map_of_mem hkv')
        have hi := C47_assignments_independent n kv.1 v s hne (hdr n kv.1 (hn _ List.mem_cons_self))
        rw [h1] at hi
        rw [← hi]
        exact this

/-- C06 fails: `set_parameters({'omega_m': 0.32, 'h': -1})` on a new object raises, and has changed
`omega_m`. -/
theorem C06_atomic_false :
    ¬ ∀ (kvs : List (Attr × PyVal)) (e : Err) (t : PyObj),
      setParameters kvs (fresh PyPar.default) = (.error e, t) → t = fresh PyPar.default := by
  intro H
  have h1 : ∃ s1, setattr .omega_m (.float 0.32) (fresh PyPar.default) = (.ok (), s1) ∧ s1.par.Omega0_m = 0.32 := by
    unfold setattr
    refine ⟨_, (guarded_run (Or.inl rfl) (by norm_num) (by norm_num) ?_).trans ((Py.bind_ok (Py.get_eq _)).trans
      ((omegas_run ?_).trans (Py.modify_eq _ _))), rfl⟩
    · show ¬ allclose 0.32 (0.3 : ℝ)
      unfold allclose; norm_num [abs_of_pos]
    · show (0.32 : ℝ) + 9e-5 ≤ 1
      norm_num
  obtain ⟨s1, h1, e1⟩ := h1
  have h2 : setattr .h (.float (-1)) s1 = (.error .valueError, s1) := by
    unfold setattr guarded
    refine Py.bind_err ?_
    unfold checkParameter
    simp only [PyVal.asKind]
    rw [if_pos (by norm_num)]
    rfl
  have h3 : setParameters [(.settable .omega_m, .float 0.32), (.settable .h, .float (-1))] (fresh PyPar.default) =
      (.error .valueError, s1) := by
    unfold setParameters
    rw [if_neg (by simp)]
    simp only [List.forM, setAttr]
    exact (Py.bind_ok h1).trans (Py.bind_err h2)
  have h4 := congrArg (fun s : PyObj => s.par.Omega0_m) (H _ _ _ h3)
  have h5 : s1.par.Omega0_m = 0.3 := h4
  rw [e1] at h5
  norm_num at h5

/-! ## Reading all parameters -/

theorem Shrinks.noCaches {s s' : PyObj} (h : Shrinks s s') (hs : s.NoCaches) : s'.NoCaches :=
  ⟨h.bg.elim (·.trans hs.bg) id, h.ps.elim (·.trans hs.ps) id, h.ints.elim (·.trans hs.ints) id,
   h.cf.elim (·.trans hs.cf) id, h.mp.elim (·.trans hs.mp) id, h.amp.elim (·.trans hs.amp) id,
   h.cov.elim (·.trans hs.cov) id, h.acov.elim (·.trans hs.acov) id⟩

theorem parametersStep_shrinks (n : Name) (s : PyObj) : Shrinks s (parametersStep n s).2 := by
  have h := setattr_shrinks n (getattr s.par n) s
  unfold Post at h
  unfold parametersStep
  rcases hx : setattr n (getattr s.par n) s with ⟨o, t⟩
  rw [hx] at h
  cases o with
  | ok a => exact h
  | error e => cases e <;> exact h

theorem parametersLoop_shrinks (ns : List Name) : ∀ s, Shrinks s (parametersLoop ns s).2 := by
  induction ns with
  | nil => intro s; exact Shrinks.refl s
  | cons n ns ih =>
    intro s
    unfold parametersLoop
    rw [Py.bind_eq]
    have h := parametersStep_shrinks n s
    rcases hx : parametersStep n s with ⟨o, t⟩
    rw [hx] at h
    cases o with
    | error e => exact h
    | ok a =>
      dsimp only
      rw [Py.bind_eq]
      have h2 := ih t
      rcases hy : parametersLoop ns t with ⟨o, u⟩
      rw [hy] at h2
      cases o <;> exact h.trans h2

/-- What one step of the loop returns. -/
theorem parametersStep_ok {n : Name} {s t : PyObj} {l : List (Name × PyVal)}
    (h : parametersStep n s = (.ok l, t)) :
    (∃ u, setattr n (getattr s.par n) s = (.ok u, t) ∧ l = [(n, getattr s.par n)]) ∨
    (n = .integrals_fftlog_sampling ∧ l = []) := by
  have hp := self_par n s
  unfold parametersStep at h
  rcases hx : setattr n (getattr s.par n) s with ⟨o, t'⟩
  rw [hx] at h hp
  cases o with
  | ok a =>
    cases h
    have hp' : t.par = s.par := hp
    exact Or.inl ⟨a, rfl, by rw [hp']⟩
  | error e =>
    cases e <;> first | (cases h; skip) | cases h
    right
    refine ⟨?_, rfl⟩
    by_contra hn
    have hd := setattr_no_attr n (getattr s.par n) hn s
    rw [hx] at hd
    exact hd rfl

/-- C07: reading `parameters` changes no parameter, whether it returns or raises, and what it returns is
every settable parameter with its current value (except `integrals_fftlog_sampling`).  Missing (false): it
should also keep the uploaded spectrum and the cached results. -/
theorem C07_parameters_partial (s : PyObj) :
    (parameters s).2.par = s.par ∧
    ∀ l, (parameters s).1 = .ok l →
      l = (Name.all.filter (· ≠ .integrals_fftlog_sampling)).map fun n => (n, getattr s.par n) := by
  refine ⟨parameters_par s, ?_⟩
  unfold parameters
  generalize Name.all = ns
  induction ns generalizing s with
  | nil => intro l h; cases h; rfl
  | cons n ns ih =>
    intro l h
    unfold parametersLoop at h
    rw [Py.bind_eq] at h
    rcases hx : parametersStep n s with ⟨o, t⟩
    rw [hx] at h
    cases o with
    | error e => cases h
    | ok a =>
      dsimp only at h
      rw [Py.bind_eq] at h
      have hpar : t.par = s.par := by
        have h1 := self_par n s
        unfold parametersStep at hx
        rcases hy : setattr n (getattr s.par n) s with ⟨o, t'⟩
        rw [hy] at hx h1
        cases o with
        | ok a => cases hx; exact h1
        | error e => cases e <;> cases hx; exact h1
      have h2 := ih t
      rcases hy : parametersLoop ns t with ⟨o, u⟩
      rw [hy] at h h2
      cases o with
      | error e => cases h
      | ok b =>
        cases h
        rw [h2 b rfl, hpar]
        rcases parametersStep_ok hx with ⟨u', hu, rfl⟩ | ⟨rfl, rfl⟩
        · have : n ≠ .integrals_fftlog_sampling := by
            rintro rfl
            obtain ⟨e, he⟩ := C05_fftlog_sampling_false (getattr s.par .integrals_fftlog_sampling) s
            rw [he] at hu
            cases hu
          rw [List.filter_cons_of_pos (by simpa using this)]
          rfl
        · rw [List.filter_cons_of_neg (by simp)]
          rfl

theorem background_sampling_clears {s t : PyObj} {u : Unit}
    (h : setattr .background_sampling (getattr s.par .background_sampling) s = (.ok u, t)) : t.NoCaches := by
  simp only [setattr, getattr, checkInt] at h
  rw [Py.bind_eq] at h
  split_ifs at h
  · cases h
  · cases h
  · have := (Prod.mk.inj h).2
    rw [← this]
    exact ⟨rfl, rfl, rfl, rfl, rfl, rfl, rfl, rfl⟩

theorem parametersLoop_clears (ns : List Name) (hm : .background_sampling ∈ ns) : ∀ s l t,
    parametersLoop ns s = (.ok l, t) → t.NoCaches := by
  induction ns with
  | nil => cases hm
  | cons n ns ih =>
    intro s l t h
    unfold parametersLoop at h
    rw [Py.bind_eq] at h
    rcases hx : parametersStep n s with ⟨o, u⟩
    rw [hx] at h
    cases o with
    | error e => cases h
    | ok a =>
      dsimp only at h
      rw [Py.bind_eq] at h
      rcases hy : parametersLoop ns u with ⟨o, w⟩
      rw [hy] at h
      cases o with
      | error e => cases h
      | ok b =>
        cases h
        by_cases hn : n = .background_sampling
        · subst hn
          rcases parametersStep_ok hx with ⟨u', hu, -⟩ | ⟨hf, -⟩
          · have h1 := parametersLoop_shrinks ns u
            rw [hy] at h1
            exact h1.noCaches (background_sampling_clears hu)
          · cases hf
        · refine ih ?_ _ _ _ hy
          rcases List.mem_cons.1 hm with h | h
          · exact absurd h.symm hn
          · exact h

/-- C07 fails in every state: whenever reading `parameters` returns, everything that had been computed or
uploaded is gone. -/
theorem C07_clears_everything_false (s t : PyObj) (l : List (Name × PyVal))
    (h : parameters s = (.ok l, t)) : t.NoCaches :=
  parametersLoop_clears Name.all (by simp [Name.all]) s l t h

/-- C07 fails: a history after which an uploaded spectrum is present and is lost by reading `parameters`. -/
theorem C07_upload_lost_false :
    ∃ (N : Num) (ops : List Op) (s : PyObj), run N ops (fresh PyPar.default) = some s ∧
      s.ps = some ([1, 2, 3, 4, 5].zip [7, 7, 7, 7, 7]) ∧ (parameters s).2.ps = none := by
  refine ⟨wNum, [.setPowerSpectrumLinear [1, 2, 3, 4, 5] [7, 7, 7, 7, 7]], _,
    run_cons (wUpload (fresh PyPar.default)), rfl, ?_⟩
  set s : PyObj := { fresh PyPar.default with
    par := { (fresh PyPar.default).par with k_min := 1, k_max := 5 }
    ps := some ([1, 2, 3, 4, 5].zip [7, 7, 7, 7, 7]), pk2d := false, ints := [] } with hs
  have h1 : parametersStep .A_s s = (.ok [(.A_s, .float 0)], s.freeSpectral) := by
    have hA : setattr .A_s (.float 0) s = (.ok (), (s.upd fun p => { p with A_s := 0 }).freeSpectral) := by
      unfold setattr
      exact (Py.bind_ok (checkParameter_ok (x := 0) rfl (by norm_num) (by norm_num))).trans rfl
    unfold parametersStep
    have : getattr s.par .A_s = .float 0 := rfl
    rw [this, hA]
    rfl
  have h2 : (parameters s).2 = (parametersLoop Name.all.tail s.freeSpectral).2 := by
    have h3 : ∀ ns, (parametersLoop (.A_s :: ns) s).2 = (parametersLoop ns s.freeSpectral).2 := by
      intro ns
      rw [show parametersLoop (.A_s :: ns) = (do
        let a ← parametersStep .A_s
        let b ← parametersLoop ns
        pure (a ++ b)) from rfl, Py.bind_ok h1, Py.bind_eq]
      rcases hx : parametersLoop ns s.freeSpectral with ⟨o, t⟩
      cases o <;> rfl
    exact h3 Name.all.tail
  rw [h2]
  rcases (parametersLoop_shrinks Name.all.tail s.freeSpectral).ps with h | h
  · rw [h]; rfl
  · exact h

theorem parametersLoop_raises (ns : List Name) (n : Name) (hm : n ∈ ns) : ∀ s : PyObj,
    (∀ t : PyObj, t.par = s.par → (setattr n (getattr t.par n) t).1 = .error .valueError) →
    ∃ e, (parametersLoop ns s).1 = .error e := by
  induction ns with
  | nil => cases hm
  | cons m ns ih =>
    intro s hs
    unfold parametersLoop
    rw [Py.bind_eq]
    rcases hx : parametersStep m s with ⟨o, u⟩
    cases o with
    | error e => exact ⟨e, rfl⟩
    | ok a =>
      dsimp only
      rw [Py.bind_eq]
      have hne : n ≠ m := by
        rintro rfl
        unfold parametersStep at hx
        have := hs s rfl
        rcases hy : setattr n (getattr s.par n) s with ⟨o, t⟩
        rw [hy] at hx this
        cases o with
        | ok a => cases this
        | error e =>
          have : e = .valueError := by injection this
          subst this
          cases hx
      have hpar : u.par = s.par := by
        have h1 := parametersLoop_par [m] s
        have : (parametersLoop [m] s).2 = u := by
          unfold parametersLoop
          rw [Py.bind_ok hx]
          rfl
        rw [this] at h1
        exact h1
      obtain ⟨e, he⟩ := ih (by rcases List.mem_cons.1 hm with h | h; exacts [absurd h hne, h]) u
        (fun t ht => hs t (ht.trans hpar))
      rcases hy : parametersLoop ns u with ⟨o, w⟩
      rw [hy] at he
      cases o with
      | ok b => cases he
      | error e => exact ⟨e, rfl⟩

/-- C07 fails: after uploading a spectrum that starts above `k = 1e-3`, `parameters` cannot even be read. -/
theorem C07_raises_false :
    ∃ (N : Num) (ops : List Op) (s : PyObj), run N ops (fresh PyPar.default) = some s ∧
      ∃ e, (parameters s).1 = .error e := by
  refine ⟨wNum, [.setPowerSpectrumLinear [1, 2, 3, 4, 5] [7, 7, 7, 7, 7]], _,
    run_cons (wUpload (fresh PyPar.default)), ?_⟩
  refine parametersLoop_raises Name.all .k_min (by simp [Name.all]) _ fun t ht => ?_
  have h1 : getattr t.par .k_min = .float 1 := by rw [ht]; rfl
  rw [h1]
  unfold setattr
  have h2 : checkParameter (.float 1) .intFloat 0 1e-3 t = (.error .valueError, t) := by
    unfold checkParameter
    simp only [PyVal.asKind]
    rw [if_neg (by norm_num), if_pos (by norm_num)]
    rfl
  exact congrArg Prod.fst (Py.bind_err h2)

end Coffe
