import Verif.Proofs.PyLookups
import Verif.Props.PyCaches

/-! # C20 on the Python object: integral look-ups after any history of calls -/

namespace Coffe
open Classical

/-- After any history of safe calls, a safe call that evaluates a signal finds every integral it reads.  The
multipole asked of `compute_multipole` must be one of the object's multipoles.  Missing: the unsafe
histories and other multipoles, for which the property is false (below). -/
theorem C20_history_partial (N : Num) (ops : List Op) (s s' : PyObj) (op : Op) (o : Out)
    (safe : SafeRun N ops (fresh PyPar.default)) (hs : run N ops (fresh PyPar.default) = some s)
    (hop : SafeOp s op) (h : exec N op s = (.ok o, s')) (out : OutputType) (l : ℕ)
    (he : Evaluates s'.par op out l) (hl : out = .MULTIPOLES → l ∈ s'.par.l) : s'.AllFound N out l := by
  have hc := run_coherent ops _ ⟨_, _, coh_fresh PyPar.default⟩ safe s hs
  have hf := exec_fine op hc hop
  obtain ⟨re, hp, -⟩ := call_prepared he h
  obtain ⟨p0, up, hco⟩ := hf _ _ h (by simp) (by simp)
  rcases hco.ints with hi | ⟨ht, hd⟩
  · exact absurd hi hp.ne
  · exact allFound_of_tab ht hd hl

/-- With `recompute=True` the same holds after *every* history, safe or not. -/
theorem C20_recompute (N : Num) (s s' : PyObj) (op : Op) (o : Out) (hr : op.Recomputes)
    (h : exec N op s = (.ok o, s')) (out : OutputType) (l : ℕ)
    (he : Evaluates s'.par op out l) (hl : out = .MULTIPOLES → l ∈ s'.par.l) : s'.AllFound N out l := by
  obtain ⟨re, hp, hre⟩ := call_prepared he h
  exact allFound_of_tab (hp.tab (hre hr)) hp.div hl

/-- Default parameters with the second Doppler term. -/
noncomputable def wD2 : PyPar :=
  { PyPar.default with contrib := { PyPar.default.contrib with d2 := true } }

theorem wSetD2 (p : PyPar) : exec wNum (.setattr (.settable .has_d2) (.bool true)) (fresh p) =
    (.ok .unit, fresh { p with contrib := { p.contrib with d2 := true } }) := rfl

theorem wD2_corrfunc : exec wNum (.computeBulk .corrfunc false) (fresh wD2) =
    (.ok (.corrfunc (corrfuncRows wNum (ready wNum wD2 wB wC) wB)),
      { ready wNum wD2 wB wC with cf := corrfuncRows wNum (ready wNum wD2 wB wC) wB }) :=
  corrfunc_fresh (N := wNum) (p := wD2) (b := wB) (c := wC) rfl rfl rfl
    (by simp [wD2, PyPar.default, generateRange]) (by simp [PyPar.RenormOob, PyPar.afterRun, wD2, PyPar.default])

/-- Non-vacuity: the hypotheses of `C20_history_partial` hold for a history with a divergent term, and that
call does read the divergent integral. -/
example : ∃ s s' o, SafeRun wNum [.setattr (.settable .has_d2) (.bool true)] (fresh PyPar.default) ∧
    run wNum [.setattr (.settable .has_d2) (.bool true)] (fresh PyPar.default) = some s ∧
    SafeOp s (.computeBulk .corrfunc false) ∧ exec wNum (.computeBulk .corrfunc false) s = (.ok o, s') ∧
    Evaluates s'.par (.computeBulk .corrfunc false) .CORRFUNC 0 ∧
    SignalLooks (s'.par.toPar wNum) .CORRFUNC 0 ⟨⟨4, 0, .int, .int⟩, .result⟩ := by
  refine ⟨_, _, _, ⟨trivial, fun _ _ _ _ _ => trivial⟩, run_cons (wSetD2 _), trivial, wD2_corrfunc,
    .corrfuncBulk _, ?_⟩
  refine ⟨by simp, Or.inl ⟨rfl, NonEnv.of wPar wBg 1 0 1, ?_⟩⟩
  exact d2_looks_I40 _ _ rfl rfl

/-! ## Where it fails -/

/-- An object on which only the integrals have been computed: the divergent switch has not been set. -/
noncomputable def wInts : PyObj :=
  let p : PyPar := { wD2 with k_min := max wD2.k_min wC.k_first, k_max := min wD2.k_max wC.k_last }
  { fresh p with
    bg := some wB, ps := some wC.spectrum, cls := some wC.cls
    ints := integrals_init (intNum wNum p wC.spectrum (some wC.cls) wB) (p.toPar wNum) p.l }

theorem find_zero (num : Key → Integral) (par : Par) (ls : List ℕ) :
    coffe_find_integral (integrals_init num par ls) ⟨0, 0, .int, .int⟩ =
      some (plainEntry num par ⟨0, 0, .int, .int⟩) := by
  simp [coffe_find_integral, integrals_init, baseKeys, plainEntry]

theorem wInts_integral : ∃ o, exec wNum (.integral 10 0 0) (fresh wD2) = (.ok o, wInts) := by
  refine ⟨.real ((plainEntry (intNum wNum wInts.par wC.spectrum (some wC.cls) wB) (wInts.par.toPar wNum)
    ⟨0, 0, .int, .int⟩).val.result 10), ?_⟩
  show integralAt wNum 10 0 0 (fresh wD2) = _
  unfold integralAt
  rw [Py.bind_ok (checkReal_ok (by norm_num) (by norm_num) _),
    Py.bind_ok (checkReal_ok (by norm_num) (by norm_num) _),
    Py.bind_ok (checkReal_ok (by norm_num) (by norm_num) _)]
  have e1 : ensureBg wNum false (fresh wD2) = (.ok (), { fresh wD2 with bg := some wB }) := by
    rw [ensureBg_none _ _ rfl]; exact backgroundInit_of (by simp [PyPar.FitOob, wD2, fresh, PyPar.default]) rfl
  rw [Py.bind_ok e1]
  have e2 : ensurePs wNum false { fresh wD2 with bg := some wB } =
      (.ok (), { wInts with ints := [] }) := by
    rw [ensurePs_none _ _ rfl]; rfl
  rw [Py.bind_ok e2]
  have e3 : ensureInts wNum false { wInts with ints := [] } = (.ok (), wInts) := by
    rw [ensureInts_none _ _ rfl, integralsInit_some wNum _ wB wC.spectrum rfl rfl, if_neg (by simp [wInts, PyPar.RenormOob, fresh, wD2, PyPar.default])]
    rfl
  rw [Py.bind_ok e3, Py.bind_ok (Py.get_eq _)]
  have e4 : coffe_find_integral wInts.ints ⟨0, 0, .int, .int⟩ = some (plainEntry
      (intNum wNum wInts.par wC.spectrum (some wC.cls) wB) (wInts.par.toPar wNum) ⟨0, 0, .int, .int⟩) :=
    find_zero _ _ _
  rw [e4]
  dsimp only
  rw [if_neg (by norm_num [wNum])]
  rfl

theorem wInts_corrfunc : ∃ o s', exec wNum (.computeBulk .corrfunc false) wInts = (.ok o, s') ∧
    s'.ints = wInts.ints ∧ s'.par = { wInts.par with divergent := true } := by
  have e := fun (k : Unit → Py Out) => prefix_cached (N := wNum) (s := wInts) (b := wB) (k := k) rfl
    (by simp [wInts]) (integrals_ne_nil _ _ _) rfl
  let t := wInts.upd fun p => { p with divergent := p.divergent || p.contrib.divergent }
  refine ⟨.corrfunc (corrfuncRows wNum t wB), { t with cf := corrfuncRows wNum t wB }, ?_, rfl, rfl⟩
  · show computeCorrfuncBulk wNum false _ = _
    unfold computeCorrfuncBulk
    rw [Py.bind_ok (checkCoordsCorrfunc_ok _ (by simp [wInts, wD2, PyPar.default, generateRange, fresh])),
      e fun _ => _]
    rw [Py.bind_ok (show ensure (fun s => s.cf = []) false (corrfuncInit wNum) t =
      (.ok (), { t with cf := corrfuncRows wNum t wB }) from
      (ensure_none (m := fun s => s.cf = []) _ _ (s := t) rfl).trans rfl)]
    rfl

/-- After `has_d2 = True` and a call of `integral`, `compute_corrfunc_bulk` looks up the divergent integral,
which is not in the table: the C code dereferences a null pointer. -/
theorem C20_integral_first_false : ∃ N s s' o,
    run N [.setattr (.settable .has_d2) (.bool true), .integral 10 0 0] (fresh PyPar.default) = some s ∧
    exec N (.computeBulk .corrfunc false) s = (.ok o, s') ∧ ¬ s'.AllFound N .CORRFUNC 0 := by
  obtain ⟨o, e1⟩ := wInts_integral
  obtain ⟨o', s', e2, hi, hp⟩ := wInts_corrfunc
  refine ⟨wNum, _, _, _, (run_cons (wSetD2 _)).trans (run_cons e1), e2, ?_⟩
  intro h
  obtain ⟨e, he, -⟩ := h ⟨⟨4, 0, .int, .int⟩, .result⟩ ⟨by simp, Or.inl ⟨by rw [hp]; rfl,
    NonEnv.of wPar wBg 1 0 1, d2_looks_I40 _ _ (by rw [hp]; rfl) (by rw [hp]; rfl)⟩⟩
  have hm := List.mem_of_find?_eq_some he
  have hk : e.key = ⟨4, 0, .int, .int⟩ := by simpa using List.find?_some he
  rw [hi] at hm
  unfold wInts at hm
  dsimp only at hm
  simp only [integrals_init, List.mem_append, List.mem_map, wD2, PyPar.default, PyPar.toPar] at hm
  simp [baseKeys, plainEntry] at hm
  rcases hm with h | h | h | h | h | h | h | h <;> rw [← h] at hk <;> simp at hk

/-- Default parameters with flat-sky lensing. -/
noncomputable def wFlat : PyPar :=
  { PyPar.default with
    contrib := { PyPar.default.contrib with len := true }
    flatsky_nonlocal := true }

theorem wSetFlat : run wNum [.setattr (.settable .has_lensing) (.bool true),
    .setattr (.settable .has_flatsky_nonlocal) (.bool true)] (fresh PyPar.default) = some (fresh wFlat) := by
  rw [run_cons (show exec wNum (.setattr (.settable .has_lensing) (.bool true)) (fresh PyPar.default) =
    (.ok .unit, fresh { PyPar.default with contrib := { PyPar.default.contrib with len := true } }) from rfl)]
  exact run_cons (show exec wNum (.setattr (.settable .has_flatsky_nonlocal) (.bool true)) _ =
    (.ok .unit, fresh wFlat) from rfl)

theorem run_append {N : Num} (ops ops' : List Op) : ∀ {s s' : PyObj}, run N ops s = some s' →
    run N (ops ++ ops') s = run N ops' s' := by
  induction ops with
  | nil => intro s s' h; simp only [run, Option.some.injEq] at h; simp [h]
  | cons op ops ih =>
    intro s s' h
    simp only [run, List.cons_append] at h ⊢
    split at h <;> first | exact ih h | simp at h

theorem wFlat_missing (p : PyPar) (hp : p.contrib.len = true) (hf : p.flatsky_nonlocal = true)
    (hx : p.only_cross_correlations = false) (hk : p.pk_type = .COFFE_PK_LINEAR)
    (s : PyObj) (hs : s.par = p) (num : Key → Integral)
    (hi : s.ints = integrals_init num ((wFlat.afterRun wC).toPar wNum) wFlat.l) :
    ¬ s.AllFound wNum .MULTIPOLES 6 := by
  intro h
  obtain ⟨e, he, -⟩ := h ⟨⟨1, 6, .int, .int⟩, .result⟩ ⟨by simp, Or.inr (Or.inr ⟨by
    simp [double_gate, PyPar.toPar, hs, hp], by
    rw [if_pos rfl]; left
    simp [double_flat_gate, flatsky_len_len_looks, PyPar.toPar, hs, hp, hf, hx, hk]⟩)⟩
  have hm := List.mem_of_find?_eq_some he
  have hk : e.key = ⟨1, 6, .int, .int⟩ := by simpa using List.find?_some he
  rw [hi] at hm
  simp only [integrals_init, List.mem_append, List.mem_map, wFlat, PyPar.default, PyPar.toPar,
    PyPar.afterRun, Contrib.divergent] at hm
  simp [baseKeys, plainEntry] at hm
  simp only [or_assoc] at hm
  rcases hm with h | h | h | h | h | h | h | h | h | h | h | h <;>
    first | (rw [← h] at hk; simp at hk) | (rw [h] at hk; simp at hk)

theorem wFlat_multipole : ∃ o, exec wNum (.computeMultipole 1 10 6 false) (fresh wFlat) =
    (.ok o, ready wNum wFlat wB wC) := by
  refine ⟨.real (signalAt wNum (ready wNum wFlat wB wC) wB 1 0 0 10 0 6 .MULTIPOLES), ?_⟩
  show computeMultipole wNum 1 10 6 false _ = _
  unfold computeMultipole
  rw [Py.bind_ok (checkCoordsMultipoles_ok _ (by simp [fresh, wFlat, PyPar.default, generateRange])),
    prefix_fresh (b := wB) (c := wC) rfl rfl rfl (by simp [PyPar.FitOob, wFlat, PyPar.default, generateRange])
      (by simp [PyPar.RenormOob, PyPar.afterRun, wFlat, PyPar.default]) (k := fun _ => _),
    Py.bind_ok (checkReal_ok (by norm_num) (by norm_num) _),
    Py.bind_ok (checkReal_ok (by norm_num) (by norm_num) _),
    Py.bind_ok (checkReal_ok (by norm_num) (by norm_num) _)]
  rfl

theorem wFlat_again (s : PyObj) (hb : s.bg = some wB) (hps : s.ps ≠ none) (hi : s.ints ≠ [])
    (hp : s.par.contrib.any = true) (hm : s.mp = [])
    (hc : ¬ (s.par.l = [] ∨ s.par.sep = [] ∨ s.par.z_mean = [])) :
    ∃ o s', exec wNum (.computeBulk .multipoles false) s = (.ok o, s') ∧ s'.ints = s.ints ∧
      s'.par = { s.par with divergent := s.par.divergent || s.par.contrib.divergent } := by
  have e := fun (k : Unit → Py Out) => prefix_cached (N := wNum) (s := s) (b := wB) (k := k) hb hps hi hp
  let t := s.upd fun p => { p with divergent := p.divergent || p.contrib.divergent }
  refine ⟨.multipoles (multipoleRows wNum t wB), { t with mp := multipoleRows wNum t wB }, ?_, rfl, rfl⟩
  · show computeMultipolesBulk wNum false _ = _
    unfold computeMultipolesBulk
    rw [Py.bind_ok (checkCoordsMultipoles_ok _ hc), e fun _ => _]
    rw [Py.bind_ok (show ensure (fun s => s.mp = []) false (multipolesInit wNum) _ = _ from
      (ensure_none _ _ hm).trans (show multipolesInit wNum t = (.ok (), { t with mp := multipoleRows wNum t wB })
        from by
          unfold multipolesInit; rw [show t.bg = some wB from hb]))]
    rfl

/-- `compute_multipole` with flat-sky lensing and a multipole that is not in the object's list: the table has
no entry for it. -/
theorem C20_multipole_false : ∃ N s s' o,
    run N [.setattr (.settable .has_lensing) (.bool true),
      .setattr (.settable .has_flatsky_nonlocal) (.bool true)] (fresh PyPar.default) = some s ∧
    exec N (.computeMultipole 1 10 6 false) s = (.ok o, s') ∧ ¬ s'.AllFound N .MULTIPOLES 6 := by
  obtain ⟨o, e⟩ := wFlat_multipole
  exact ⟨wNum, _, _, o, wSetFlat, e, wFlat_missing _ rfl rfl rfl rfl _ rfl _ rfl⟩

/-- Changing the multipoles keeps the table of a flat-sky computation: the next call looks up an entry that
is not there. -/
theorem C20_l_change_false : ∃ N s s' o,
    run N [.setattr (.settable .has_lensing) (.bool true),
      .setattr (.settable .has_flatsky_nonlocal) (.bool true), .computeBulk .multipoles false,
      .setattr (.settable .l) (.ints [6])] (fresh PyPar.default) = some s ∧
    exec N (.computeBulk .multipoles false) s = (.ok o, s') ∧ 6 ∈ s'.par.l ∧
    ¬ s'.AllFound N .MULTIPOLES 6 := by
  have e1 := multipoles_fresh (N := wNum) (p := wFlat) (b := wB) (c := wC) rfl rfl rfl
    (by simp [wFlat, PyPar.default, generateRange]) (by simp [PyPar.RenormOob, PyPar.afterRun, wFlat, PyPar.default])
  have hl : ∀ s, exec wNum (.setattr (.settable .l) (.ints [6])) s =
      (.ok .unit, { s with par := { s.par with l := [6] }, mp := [], amp := [], cov := [], acov := [] }) := by
    intro s
    have h : setattr .l (.ints [6]) s =
        (.ok (), { s with par := { s.par with l := [6] }, mp := [], amp := [], cov := [], acov := [] }) := by
      unfold setattr checkMultipoles
      dsimp only
      rw [if_pos (by simp)]; rfl
    exact Py.bind_ok h
  obtain ⟨o, s', e2, hi, hp⟩ := wFlat_again { ready wNum wFlat wB wC with
      par := { (ready wNum wFlat wB wC).par with l := [6] }, mp := [], amp := [], cov := [], acov := [] }
    rfl (by simp [ready]) (integrals_ne_nil _ _ _) rfl rfl
    (by simp [ready, PyPar.afterRun, fresh, wFlat, PyPar.default, generateRange])
  refine ⟨wNum, _, s', o, (run_append _ [.computeBulk .multipoles false, .setattr (.settable .l) (.ints [6])] wSetFlat).trans ((run_cons (op := .computeBulk .multipoles false)
    e1).trans (run_cons (hl _))), e2, by rw [hp]; simp, ?_⟩
  exact wFlat_missing s'.par (by rw [hp]; rfl) (by rw [hp]; rfl) (by rw [hp]; rfl) (by rw [hp]; rfl) _ rfl _
    (by rw [hi]; rfl)

end Coffe
