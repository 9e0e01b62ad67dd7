import Verif.Spec.NotANumber
import Mathlib.Tactic.Linarith
import Mathlib.Tactic.NormNum
import Mathlib.Tactic.Positivity

/-!
# C82: settings are numbers in their ranges, and NaN gets past the checks
-/

namespace Coffe
open Classical

theorem not_posInf_lt (a : ℝ) : ¬ Dbl.posInf.lt (.fin a) := fun q => q
theorem lt_posInf (a : ℝ) : (Dbl.fin a).lt .posInf := trivial
theorem negInf_lt (a : ℝ) : Dbl.negInf.lt (.fin a) := trivial
theorem not_nan_lt (a : Dbl) : ¬ Dbl.nan.lt a := by cases a <;> exact fun q => q
theorem not_lt_nan (a : Dbl) : ¬ a.lt .nan := by cases a <;> exact fun q => q
theorem not_nan_close (a : Dbl) : ¬ Dbl.nan.close a := by cases a <;> exact fun q => q

/-- The two models check alike. -/
theorem check_agrees (v : PyVal) (k : Kind) (lo hi : ℝ) :
    (∃ x, checkParameter v k lo hi = pure x ∧ checkParameterD v.double k lo hi = .ok (.fin x)) ∨
    (∃ e, checkParameter v k lo hi = Py.raise e ∧ checkParameterD v.double k lo hi = .error e) := by
  have key : v.double.asKind k = (v.asKind k).map .fin := by
    cases v <;> cases k <;> rfl
  unfold checkParameter checkParameterD
  rw [key]
  rcases v.asKind k with _ | x
  · exact Or.inr ⟨_, rfl, rfl⟩
  · have l1 : (Dbl.fin x).lt (.fin lo) ↔ x < lo := Iff.rfl
    have l2 : (Dbl.fin hi).lt (.fin x) ↔ hi < x := Iff.rfl
    simp only [Option.map_some, l1, l2]
    by_cases h1 : x < lo
    · exact Or.inr ⟨.valueError, if_pos h1, if_pos h1⟩
    · by_cases h2 : hi < x
      · exact Or.inr ⟨.valueError, by rw [if_neg h1]; exact if_pos h2, by rw [if_neg h1, if_pos h2]⟩
      · exact Or.inl ⟨x, by rw [if_neg h1]; exact if_neg h2, by rw [if_neg h1, if_neg h2]⟩

/-- Two methods do the same on objects that agree. -/
def SameRun (m : DPy) (p : Py Unit) : Prop := ∀ d s, DObj.Agrees d s → (m d).1 = (p s).1 ∧ (m d).2.Agrees (p s).2

theorem same_checked (v : PyVal) (k : Kind) (lo hi : ℝ) {act : Dbl → DPy} {actR : ℝ → Py Unit}
    (h : ∀ x, SameRun (act (.fin x)) (actR x)) :
    SameRun (checkedD v.double k lo hi act) (checkParameter v k lo hi >>= actR) := by
  intro d s a
  rcases check_agrees v k lo hi with ⟨x, e1, e2⟩ | ⟨e, e1, e2⟩
  · have r : checkedD v.double k lo hi act d = act (.fin x) d := by unfold checkedD; rw [e2]
    rw [r, e1]
    exact h x d s a
  · have r : checkedD v.double k lo hi act d = (.error e, d) := by unfold checkedD; rw [e2]
    rw [r, e1]
    exact ⟨rfl, a⟩

theorem same_guarded (v : PyVal) (k : Kind) (lo hi : ℝ) {old : DCosmo → Dbl} {oldR : PyPar → ℝ} {act : Dbl → DPy}
    {actR : ℝ → Py Unit} (ho : ∀ p, old (PyPar.doubles p) = .fin (oldR p)) (h : ∀ x, SameRun (act (.fin x)) (actR x)) :
    SameRun (guardedD v.double k lo hi old act) (guarded v k lo hi oldR actR) := by
  refine same_checked v k lo hi (actR := fun x => Py.get >>= fun s => if allclose x (oldR s.par) then pure () else actR x)
    fun x d s a => ?_
  have e : (Dbl.fin x).close (old d.par) ↔ allclose x (oldR s.par) := by rw [a.1, ho]; exact Iff.rfl
  show (if (Dbl.fin x).close (old d.par) then (Except.ok (), d) else act (.fin x) d).1 =
      ((if allclose x (oldR s.par) then (pure () : Py Unit) else actR x) s).1 ∧
    DObj.Agrees (if (Dbl.fin x).close (old d.par) then (Except.ok (), d) else act (.fin x) d).2
      ((if allclose x (oldR s.par) then (pure () : Py Unit) else actR x) s).2
  by_cases c : allclose x (oldR s.par)
  · rw [if_pos (e.2 c), if_pos c]; exact ⟨rfl, a⟩
  · rw [if_neg (fun q => c (e.1 q)), if_neg c]; exact h x d s a

theorem same_budget {total : DCosmo → Dbl} {totalR : PyPar → ℝ} {act : DPy} {actR : Py Unit}
    (ho : ∀ p, total (PyPar.doubles p) = .fin (totalR p)) (h : SameRun act actR) :
    SameRun (budgetD total act) (Py.get >>= fun s => checkOmegas (totalR s.par) >>= fun _ => actR) := by
  intro d s a
  have l : (Dbl.fin 1).lt (total d.par) ↔ 1 < totalR s.par := by rw [a.1, ho]; exact Iff.rfl
  by_cases c : 1 < totalR s.par
  · have r : budgetD total act d = (.error .valueError, d) := by
      unfold budgetD checkOmegasD; rw [if_pos (l.2 c)]
    have r2 : checkOmegas (totalR s.par) = Py.raise .valueError := if_pos c
    rw [r]
    show _ = ((checkOmegas (totalR s.par) >>= fun _ => actR) s).1 ∧ DObj.Agrees _ ((checkOmegas (totalR s.par) >>= fun _ => actR) s).2
    rw [r2]
    exact ⟨rfl, a⟩
  · have r : budgetD total act d = act d := by
      unfold budgetD checkOmegasD; rw [if_neg (fun q => c (l.1 q))]
    have r2 : checkOmegas (totalR s.par) = pure () := if_neg c
    rw [r]
    show _ = ((checkOmegas (totalR s.par) >>= fun _ => actR) s).1 ∧ DObj.Agrees _ ((checkOmegas (totalR s.par) >>= fun _ => actR) s).2
    rw [r2]
    exact h d s a

theorem same_store {f : DCosmo → DCosmo} {g : PyPar → PyPar} {free : PyObj → PyObj}
    (hf : ∀ p, f (PyPar.doubles p) = (g p).doubles) (hp : ∀ s p, free (PyObj.mk p s.bg s.ps s.cls s.pk2d s.ints s.cf s.mp s.amp s.cov s.acov) =
      { free s with par := p }) : SameRun (storeD f free) (store g free) := by
  intro d s a
  refine ⟨rfl, ?_, ?_⟩
  · show f d.par = (free (s.upd g)).par.doubles
    rw [show free (s.upd g) = _ from hp s (g s.par), a.1, hf]
  · show { free d.obj with par := (free (s.upd g)).par } = free (s.upd g)
    rw [show free (s.upd g) = _ from hp s (g s.par), ← a.2, hp d.obj s.par]

/-- **C82**: with numbers, the model with special values does exactly what the model with exact reals does: the same
values, the same exceptions, the same settings and the same results freed. -/
theorem C82_finite (n : CName) (v : PyVal) {d : DObj} {s : PyObj} (h : d.Agrees s) :
    (setD n v.double d).1 = (setattr n.name v s).1 ∧ (setD n v.double d).2.Agrees (setattr n.name v s).2 ∧
    ∃ x, getattr s.par n.name = .float x ∧ n.read d.par = .fin x := by
  have key : SameRun (setD n v.double) (setattr n.name v) := by
    cases n
    case m_ncdm =>
      refine same_guarded v _ _ _ (fun _ => rfl) fun x d s a => ?_
      have e : d.par.h = .fin 0 ↔ s.par.h = 0 := by
        rw [a.1]; exact ⟨fun q => by injection q, fun q => by show Dbl.fin s.par.h = _; rw [q]⟩
      have hs : SameRun (storeD (fun p => DCosmo.balance { p with
          m_ncdm := .fin x
          Omega0_nu := (((Dbl.fin x).div (.fin 93.14)).div p.h).div p.h
          Omega0_cdm := (p.Omega0_m.sub p.Omega0_baryon).sub ((((Dbl.fin x).div (.fin 93.14)).div p.h).div p.h) }) PyObj.freeAll)
          (store (fun p => PyPar.balance { p with
            m_ncdm := x
            Omega0_nu := x / 93.14 / p.h / p.h
            Omega0_cdm := p.Omega0_m - p.Omega0_baryon - x / 93.14 / p.h / p.h }) PyObj.freeAll) :=
        same_store (fun _ => rfl) fun _ _ => rfl
      by_cases c : s.par.h = 0
      · have r : (store (fun p => { p with m_ncdm := x }) id >>= fun _ => Py.get >>= fun s =>
            if s.par.h = 0 then Py.raise .zeroDivision
            else store (fun p => PyPar.balance { p with
              Omega0_nu := x / 93.14 / p.h / p.h
              Omega0_cdm := p.Omega0_m - p.Omega0_baryon - x / 93.14 / p.h / p.h }) PyObj.freeAll) s =
            ((.error .zeroDivision : Except Err Unit), s.upd fun p => { p with m_ncdm := x }) := by
          show (if (s.upd fun p => { p with m_ncdm := x }).par.h = 0 then (Py.raise .zeroDivision : Py Unit) else _) _ = _
          rw [if_pos (show (s.upd fun p => { p with m_ncdm := x }).par.h = 0 from c)]
          rfl
        show (if d.par.h = Dbl.fin 0 then ((_, _) : Except Err Unit × DObj) else _).1 = _ ∧
          DObj.Agrees (if d.par.h = Dbl.fin 0 then ((_, _) : Except Err Unit × DObj) else _).2 _
        rw [if_pos (e.2 c)]
        refine ⟨(congrArg Prod.fst r).symm, ?_⟩
        show DObj.Agrees ⟨{ d.par with m_ncdm := .fin x }, d.obj⟩ _
        refine (congrArg (DObj.Agrees ⟨{ d.par with m_ncdm := .fin x }, d.obj⟩) (congrArg Prod.snd r)).mpr ⟨by rw [a.1]; rfl, ?_⟩
        exact congrArg (fun o : PyObj => o.upd fun p => { p with m_ncdm := x }) a.2
      · have r : (store (fun p => { p with m_ncdm := x }) id >>= fun _ => Py.get >>= fun s =>
            if s.par.h = 0 then Py.raise .zeroDivision
            else store (fun p => PyPar.balance { p with
              Omega0_nu := x / 93.14 / p.h / p.h
              Omega0_cdm := p.Omega0_m - p.Omega0_baryon - x / 93.14 / p.h / p.h }) PyObj.freeAll) s =
            store (fun p => PyPar.balance { p with
            m_ncdm := x
            Omega0_nu := x / 93.14 / p.h / p.h
            Omega0_cdm := p.Omega0_m - p.Omega0_baryon - x / 93.14 / p.h / p.h }) PyObj.freeAll s := by
          show (if (s.upd fun p => { p with m_ncdm := x }).par.h = 0 then (Py.raise .zeroDivision : Py Unit) else _) _ = _
          rw [if_neg (show ¬ (s.upd fun p => { p with m_ncdm := x }).par.h = 0 from c)]
          rfl
        show (if d.par.h = Dbl.fin 0 then ((_, _) : Except Err Unit × DObj) else _).1 = _ ∧
          DObj.Agrees (if d.par.h = Dbl.fin 0 then ((_, _) : Except Err Unit × DObj) else _).2 _
        rw [if_neg (fun q => c (e.1 q))]
        have q := hs d s a
        rw [← r] at q
        exact q
    case omega_cdm =>
      exact same_guarded v _ _ _ (fun _ => rfl) fun x =>
        same_budget (totalR := fun p => x + p.Omega0_baryon + p.Omega0_gamma + p.Omega0_nu) (fun _ => rfl) (same_store (fun _ => rfl) fun _ _ => rfl)
    case omega_m =>
      exact same_guarded v _ _ _ (fun _ => rfl) fun x =>
        same_budget (totalR := fun p => x + p.Omega0_gamma) (fun _ => rfl) (same_store (fun p => by
          simp only [PyPar.doubles, PyPar.balance, DCosmo.balance, Dbl.sub, Dbl.add, Dbl.neg, sub_eq_add_neg]) fun _ _ => rfl)
    case omega_baryon =>
      exact same_guarded v _ _ _ (fun _ => rfl) fun x =>
        same_budget (totalR := fun p => x + p.Omega0_cdm + p.Omega0_gamma) (fun _ => rfl) (same_store (fun p => by
          simp only [PyPar.doubles, PyPar.balance, DCosmo.balance, Dbl.sub, Dbl.add, Dbl.neg, sub_eq_add_neg]) fun _ _ => rfl)
    case omega_gamma =>
      exact same_guarded v _ _ _ (fun _ => rfl) fun x =>
        same_budget (totalR := fun p => x + p.Omega0_m) (fun _ => rfl) (same_store (fun p => by
          simp only [PyPar.doubles, PyPar.balance, DCosmo.balance, Dbl.sub, Dbl.add, Dbl.neg, sub_eq_add_neg]) fun _ _ => rfl)
    case A_s | integration_1d_prec | k_min | k_max =>
      exact same_checked v _ _ _ fun x => same_store (fun _ => rfl) fun _ _ => rfl
    all_goals exact same_guarded v _ _ _ (fun _ => rfl) fun x => same_store (fun _ => rfl) fun _ _ => rfl
  exact ⟨(key d s h).1, (key d s h).2, by rw [h.1]; cases n <;> exact ⟨_, rfl, rfl⟩⟩

/-- What is assigned matters only through the number it is. -/
theorem setD_congr {v w : DVal} (h : v.asKind = w.asKind) (n : CName) : setD n v = setD n w := by
  have e : ∀ k lo hi, checkParameterD v k lo hi = checkParameterD w k lo hi := by
    intro k lo hi; unfold checkParameterD; rw [h]
  have c : ∀ k lo hi act, checkedD v k lo hi act = checkedD w k lo hi act := by
    intro k lo hi act; unfold checkedD; rw [e]
  cases n <;> simp only [setD, guardedD, c]

/-- An assignment that fails the check changes nothing. -/
theorem setD_error {v : DVal} {e : Err} (n : CName) (s : DObj)
    (h : checkParameterD v (if n = .integration_1d_prec then .float else .intFloat) n.range.1 n.range.2 = .error e) :
    setD n v s = (.error e, s) := by
  have c : ∀ act, checkedD v (if n = .integration_1d_prec then .float else .intFloat) n.range.1 n.range.2 act s = (.error e, s) := by
    intro act; unfold checkedD; rw [h]
  have g : ∀ old act, guardedD v (if n = .integration_1d_prec then .float else .intFloat) n.range.1 n.range.2 old act s = (.error e, s) :=
    fun old act => c _
  cases n <;> first | exact c _ | exact g _ _

/-- **C82**: an infinity is refused by every setting, and nothing changes. -/
theorem C82_infinite (n : CName) (s : DObj) :
    setD n (.float .posInf) s = (.error .valueError, s) ∧ setD n (.float .negInf) s = (.error .valueError, s) := by
  have k : ∀ d, (DVal.float d).asKind (if n = .integration_1d_prec then .float else .intFloat) = some d := by
    intro d; cases n <;> rfl
  refine ⟨setD_error n s ?_, setD_error n s ?_⟩
  · unfold checkParameterD
    rw [k]
    show (if Dbl.posInf.lt (.fin n.range.1) then _ else if (Dbl.fin n.range.2).lt Dbl.posInf then _ else _) = _
    rw [if_neg (not_posInf_lt _), if_pos (lt_posInf _)]
  · unfold checkParameterD
    rw [k]
    exact if_pos (negInf_lt _)

/-- **C82**: what a setting accepts is a number in its range, or NaN. -/
theorem C82_range_partial (n : CName) (d : Dbl) (s : DObj) (h : (setD n (.float d) s).1 = .ok ()) :
    d = .nan ∨ d.Within n.range.1 n.range.2 := by
  have k : (DVal.float d).asKind (if n = .integration_1d_prec then .float else .intFloat) = some d := by
    cases n <;> rfl
  rcases hd : checkParameterD (.float d) (if n = .integration_1d_prec then .float else .intFloat) n.range.1 n.range.2 with e | x
  · rw [setD_error n s hd] at h
    cases h
  · unfold checkParameterD at hd
    rw [k] at hd
    simp only at hd
    cases d with
    | nan => exact Or.inl rfl
    | posInf => rw [if_neg (not_posInf_lt _), if_pos (lt_posInf _)] at hd; cases hd
    | negInf => rw [if_pos (negInf_lt _)] at hd; cases hd
    | fin y =>
      by_cases h1 : y < n.range.1
      · rw [if_pos (show (Dbl.fin y).lt (.fin n.range.1) from h1)] at hd; cases hd
      · by_cases h2 : n.range.2 < y
        · rw [if_neg (show ¬ (Dbl.fin y).lt (.fin n.range.1) from h1), if_pos (show (Dbl.fin n.range.2).lt (.fin y) from h2)] at hd
          cases hd
        · exact Or.inr ⟨y, rfl, not_lt.1 h1, not_lt.1 h2⟩

/-- **C82**: as long as nobody assigns NaN, whatever else is assigned and in whatever order, every setting is a number. -/
theorem C82_history (l : List (CName × DVal)) (hl : ∀ x ∈ l, x.2 ≠ .float .nan) {d : DObj} {s : PyObj} (h : d.Agrees s) :
    ∃ s' : PyObj, (l.foldl (fun o x => (setD x.1 x.2 o).2) d).Agrees s' ∧
      ∀ n : CName, (n.read (l.foldl (fun o x => (setD x.1 x.2 o).2) d).par).Finite := by
  induction l generalizing d s with
  | nil => exact ⟨s, h, fun n => (C82_finite n .other h).2.2.elim fun x hx => ⟨x, hx.2⟩⟩
  | cons x l ih =>
    have hl' : ∀ y ∈ l, y.2 ≠ .float .nan := fun y hy => hl y (List.mem_cons_of_mem _ hy)
    obtain ⟨n, v⟩ := x
    have hv := hl (n, v) List.mem_cons_self
    rw [List.foldl_cons]
    cases v with
    | val v =>
      have e : setD n (.val v) = setD n v.double :=
        setD_congr (by funext k; cases v <;> cases k <;> rfl) n
      show ∃ s', DObj.Agrees (l.foldl _ (setD n (.val v) d).2) s' ∧ _
      rw [show (setD n (.val v) d).2 = (setD n v.double d).2 by rw [e]]
      exact ih hl' (C82_finite n v h).2.1
    | float y =>
      cases y with
      | nan => exact absurd rfl hv
      | posInf => rw [show (setD n (.float .posInf) d).2 = d by rw [(C82_infinite n d).1]]; exact ih hl' h
      | negInf => rw [show (setD n (.float .negInf) d).2 = d by rw [(C82_infinite n d).2]]; exact ih hl' h
      | fin z => exact ih hl' (C82_finite n (.float z) h).2.1

/-- **C82** is false for NaN: every setting, of every object, accepts it and keeps it, and drops everything that was
calculated (the mass of the neutrinos when `h` is not zero). -/
theorem C82_nan_false (n : CName) (s : DObj) (h : n = .m_ncdm → s.par.h ≠ .fin 0) :
    (setD n (.float .nan) s).1 = .ok () ∧ n.read (setD n (.float .nan) s).2.par = .nan ∧
      (setD n (.float .nan) s).2.obj.Cleared := by
  have k : ∀ kd lo hi, kd ≠ Kind.int → checkParameterD (.float .nan) kd lo hi = .ok .nan := by
    intro kd lo hi hk
    have : (DVal.float .nan).asKind kd = some .nan := by cases kd <;> first | rfl | exact absurd rfl hk
    unfold checkParameterD
    rw [this]
    show (if Dbl.nan.lt (.fin lo) then _ else if (Dbl.fin hi).lt Dbl.nan then _ else _) = _
    rw [if_neg (not_nan_lt _), if_neg (not_lt_nan _)]
  have c : ∀ kd lo hi act, kd ≠ Kind.int → checkedD (.float .nan) kd lo hi act s = act .nan s := by
    intro kd lo hi act hk; unfold checkedD; rw [k kd lo hi hk]
  have g : ∀ lo hi old act, guardedD (.float .nan) .intFloat lo hi old act s = act .nan s := by
    intro lo hi old act
    unfold guardedD
    rw [c _ _ _ _ (by decide)]
    exact if_neg (not_nan_close _)
  have b : ∀ total act, (∀ p, total p = .nan) → budgetD total act s = act s := by
    intro total act ht
    unfold budgetD checkOmegasD
    rw [ht, if_neg (not_lt_nan _)]
  have add : ∀ x : Dbl, Dbl.nan.add x = .nan := by intro x; cases x <;> rfl
  cases n
  case m_ncdm =>
    simp only [setD]
    rw [g, if_neg (h rfl)]
    exact ⟨rfl, rfl, rfl, rfl, rfl, rfl, rfl, rfl, rfl⟩
  case omega_cdm | omega_m | omega_baryon | omega_gamma =>
    simp only [setD]
    rw [g, b _ _ (fun p => by simp only [add])]
    exact ⟨rfl, rfl, rfl, rfl, rfl, rfl, rfl, rfl, rfl⟩
  case A_s | k_min | k_max | integration_1d_prec =>
    simp only [setD]
    rw [c _ _ _ _ (by decide)]
    exact ⟨rfl, rfl, rfl, rfl, rfl, rfl, rfl, rfl, rfl⟩
  all_goals
    simp only [setD]
    rw [g]
    exact ⟨rfl, rfl, rfl, rfl, rfl, rfl, rfl, rfl, rfl⟩

theorem check_within {x lo hi : ℝ} (h1 : lo ≤ x) (h2 : x ≤ hi) :
    checkParameterD (.float (.fin x)) .intFloat lo hi = .ok (.fin x) := by
  show (if (Dbl.fin x).lt (.fin lo) then _ else if (Dbl.fin hi).lt (.fin x) then _ else _) = _
  rw [if_neg (show ¬ (Dbl.fin x).lt (.fin lo) from not_lt.2 h1), if_neg (show ¬ (Dbl.fin hi).lt (.fin x) from not_lt.2 h2)]

theorem guarded_new {x lo hi : ℝ} (h1 : lo ≤ x) (h2 : x ≤ hi) {old : DCosmo → Dbl} {act : Dbl → DPy} {s : DObj}
    (h : ¬ (Dbl.fin x).close (old s.par)) : guardedD (.float (.fin x)) .intFloat lo hi old act s = act (.fin x) s := by
  unfold guardedD checkedD
  rw [check_within h1 h2]
  exact if_neg h

theorem guarded_old {x lo hi : ℝ} (h1 : lo ≤ x) (h2 : x ≤ hi) {old : DCosmo → Dbl} {act : Dbl → DPy} {s : DObj}
    (h : (Dbl.fin x).close (old s.par)) : guardedD (.float (.fin x)) .intFloat lo hi old act s = (.ok (), s) := by
  unfold guardedD checkedD
  rw [check_within h1 h2]
  exact if_pos h

theorem add_nan (a : Dbl) : a.add .nan = .nan := by cases a <;> rfl
theorem sub_nan (a : Dbl) : a.sub .nan = .nan := add_nan a

theorem guarded_nan (lo hi : ℝ) {old : DCosmo → Dbl} {act : Dbl → DPy} {s : DObj} :
    guardedD (.float .nan) .intFloat lo hi old act s = act .nan s := by
  have k : checkParameterD (.float .nan) .intFloat lo hi = .ok .nan := by
    show (if Dbl.nan.lt (.fin lo) then _ else if (Dbl.fin hi).lt Dbl.nan then _ else _) = _
    rw [if_neg (not_nan_lt _), if_neg (not_lt_nan _)]
  unfold guardedD checkedD
  rw [k]
  exact if_neg (not_nan_close _)

theorem budget_nan {total : DCosmo → Dbl} {act : DPy} {s : DObj} (h : total s.par = .nan) :
    budgetD total act s = act s := by
  unfold budgetD checkOmegasD
  rw [h, if_neg (not_lt_nan _)]

/-- **C82**: a NaN among the densities spreads: with NaN matter, the cold dark matter and the dark energy are NaN too. -/
theorem C82_spreads_false (s : DObj) : (setD .omega_m (.float .nan) s).2.par.Omega0_cdm = .nan ∧
    (setD .omega_m (.float .nan) s).2.par.Omega0_de = .nan := by
  have e : setD .omega_m (.float .nan) s = storeD (fun p => DCosmo.balance { p with
        Omega0_m := .nan, Omega0_cdm := (Dbl.nan.sub p.Omega0_baryon).sub p.Omega0_nu }) PyObj.freeAll s := by
    simp only [setD]
    rw [guarded_nan, budget_nan (by cases s.par.Omega0_gamma <;> rfl)]
  rw [e]
  constructor
  · show (Dbl.nan.sub s.par.Omega0_baryon).sub s.par.Omega0_nu = .nan
    unfold Dbl.sub
    generalize s.par.Omega0_baryon.neg = a
    generalize s.par.Omega0_nu.neg = b
    cases a <;> cases b <;> rfl
  · show ((Dbl.fin 1).sub .nan).sub s.par.Omega0_gamma = .nan
    rw [sub_nan]
    unfold Dbl.sub
    generalize s.par.Omega0_gamma.neg = a
    cases a <;> rfl

/-- **C82**: once the radiation is NaN the check of the energy budget passes everything: fifty times the critical density
of matter is accepted. -/
theorem C82_budget_false (s : DObj) (h : s.par.Omega0_m = .fin 0.3) : ∃ s1 s2 : DObj,
    setD .omega_gamma (.float .nan) s = (.ok (), s1) ∧ setD .omega_m (.float (.fin 50)) s1 = (.ok (), s2) ∧
    s2.par.Omega0_m = .fin 50 := by
  have e1 : setD .omega_gamma (.float .nan) s =
      storeD (fun p => DCosmo.balance { p with Omega0_gamma := .nan }) PyObj.freeAll s := by
    simp only [setD]
    rw [guarded_nan, budget_nan (by cases s.par.Omega0_m <;> rfl)]
  have e2 : ∀ o : DObj, o.par.Omega0_m = .fin 0.3 → o.par.Omega0_gamma = .nan → setD .omega_m (.float (.fin 50)) o =
      storeD (fun p => DCosmo.balance { p with
        Omega0_m := .fin 50, Omega0_cdm := ((Dbl.fin 50).sub p.Omega0_baryon).sub p.Omega0_nu }) PyObj.freeAll o := by
    intro o q1 q2
    simp only [setD]
    rw [guarded_new (by norm_num) (by norm_num) (by
      rw [q1]
      show ¬ |(50 : ℝ) - 0.3| ≤ 1e-8 + 1e-5 * |0.3|
      rw [abs_of_pos (by norm_num), abs_of_pos (by norm_num)]
      norm_num), budget_nan (by rw [q2]; rfl)]
  exact ⟨_, _, e1, e2 _ h rfl, rfl⟩

/-- **C82**: a NaN can outlive its cause.  After `h` was NaN for a moment, `h` and the mass of the neutrinos are both what
they should be, and the neutrinos and the cold dark matter are still NaN; assigning the same mass again does not help. -/
theorem C82_stuck_false (s : DObj) (h : s.par.m_ncdm = .fin 0) : ∃ s1 s2 s3 : DObj,
    setD .h (.float .nan) s = (.ok (), s1) ∧ setD .m_ncdm (.float (.fin 0.06)) s1 = (.ok (), s2) ∧
    setD .h (.float (.fin 0.67)) s2 = (.ok (), s3) ∧ setD .m_ncdm (.float (.fin 0.06)) s3 = (.ok (), s3) ∧
    s3.par.h = .fin 0.67 ∧ s3.par.m_ncdm = .fin 0.06 ∧ s3.par.Omega0_nu = .nan ∧ s3.par.Omega0_cdm = .nan := by
  have e1 : setD .h (.float .nan) s = storeD (fun p => DCosmo.balance { p with h := .nan }) PyObj.freeAll s := by
    simp only [setD]
    rw [guarded_nan]
  have e2 : ∀ o : DObj, o.par.m_ncdm = .fin 0 → o.par.h = .nan → setD .m_ncdm (.float (.fin 0.06)) o =
      storeD (fun p => DCosmo.balance { p with
        m_ncdm := .fin 0.06
        Omega0_nu := (((Dbl.fin 0.06).div (.fin 93.14)).div p.h).div p.h
        Omega0_cdm := (p.Omega0_m.sub p.Omega0_baryon).sub ((((Dbl.fin 0.06).div (.fin 93.14)).div p.h).div p.h) }) PyObj.freeAll o := by
    intro o q1 q2
    simp only [setD]
    rw [guarded_new (by norm_num) (by norm_num) (by
      rw [q1]
      show ¬ |(0.06 : ℝ) - 0| ≤ 1e-8 + 1e-5 * |0|
      rw [abs_of_pos (by norm_num), abs_zero]
      norm_num), if_neg (by rw [q2]; intro q; cases q)]
  have e3 : ∀ o : DObj, o.par.h = .nan → setD .h (.float (.fin 0.67)) o =
      storeD (fun p => DCosmo.balance { p with h := .fin 0.67 }) PyObj.freeAll o := by
    intro o q
    simp only [setD]
    rw [guarded_new (by norm_num) (by norm_num) (by rw [q]; exact fun q => q)]
  have e4 : ∀ o : DObj, o.par.m_ncdm = .fin 0.06 → setD .m_ncdm (.float (.fin 0.06)) o = (.ok (), o) := by
    intro o q
    simp only [setD]
    rw [guarded_old (by norm_num) (by norm_num) (by
      rw [q]
      show |(0.06 : ℝ) - 0.06| ≤ 1e-8 + 1e-5 * |0.06|
      rw [sub_self, abs_zero]
      positivity)]
  exact ⟨_, _, _, e1, e2 _ h rfl, e3 _ rfl, e4 _ rfl, rfl, rfl, rfl, sub_nan _⟩

/-- **C82**: the settings that are lists accept only numbers in their ranges; NaN is refused. -/
theorem C82_lists {a b : Bool} {lo hi : ℝ} {l : List Dbl} (h : listTestD a b lo hi l) : ∀ x ∈ l, x.Within lo hi := by
  intro x hx
  obtain ⟨h1, h2⟩ := h x hx
  cases x with
  | fin y =>
    refine ⟨y, rfl, ?_, ?_⟩
    · cases a
      · rcases h1 with q | q
        · exact le_of_lt q
        · injection q with q; exact le_of_eq q.symm
      · exact le_of_lt h1
    · cases b
      · rcases h2 with q | q
        · exact le_of_lt q
        · injection q with q; exact le_of_eq q
      · exact le_of_lt h2
  | posInf =>
    cases b
    · rcases h2 with q | q
      · exact absurd q (not_posInf_lt _)
      · cases q
    · exact absurd h2 (not_posInf_lt hi)
  | negInf =>
    cases a
    · rcases h1 with q | q
      · exact q.elim
      · cases q
    · exact h1.elim
  | nan =>
    cases a
    · rcases h1 with q | q
      · exact absurd q (not_lt_nan _)
      · cases q
    · exact absurd h1 (not_lt_nan (.fin lo))

/-- The default object agrees with itself, its mass of neutrinos is zero and its matter is 0.3; the range test of the
separations holds for a list of numbers. -/
example : DObj.Agrees ⟨PyPar.default.doubles, fresh PyPar.default⟩ (fresh PyPar.default) ∧
    PyPar.default.doubles.m_ncdm = .fin 0 ∧ PyPar.default.doubles.Omega0_m = .fin 0.3 ∧
    listTestD true true 0 10000 [.fin 20, .fin 100] := by
  refine ⟨⟨rfl, rfl⟩, rfl, rfl, fun x hx => ?_⟩
  simp only [List.mem_cons, List.not_mem_nil, or_false] at hx
  rcases hx with rfl | rfl
  · exact ⟨show (0 : ℝ) < 20 by norm_num, show (20 : ℝ) < 10000 by norm_num⟩
  · exact ⟨show (0 : ℝ) < 100 by norm_num, show (100 : ℝ) < 10000 by norm_num⟩

end Coffe
