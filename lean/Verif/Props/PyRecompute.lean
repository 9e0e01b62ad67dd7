import Verif.Proofs.PyRecompute2
import Verif.Props.PyCaches

/-! # C01: `recompute=True` is independent of the history (except for one internal switch) -/

namespace Coffe
open Classical

/-- The internal switch of the two objects does not matter: there are enough widths of the redshift bins, or an effect that
needs the divergent integral is on, or the switch is the same. -/
def SwitchFine (s s' : PyObj) : Prop :=
  s.par.z_mean.length ≤ s.par.deltaz.length ∨ s.par.contrib.divergent = true ∨ s.par.divergent = s'.par.divergent

theorem SwitchFine.sameVis {s s' : PyObj} (h : s.par.visible = s'.par.visible) (hw : SwitchFine s s') : SameVis s s' := by
  refine ⟨h, fun hd => ?_⟩
  have hz : s'.par.z_mean = s.par.z_mean := (congrArg PyPar.z_mean h).symm
  have hl : s'.par.deltaz = s.par.deltaz := (congrArg PyPar.deltaz h).symm
  unfold PyPar.RenormOob
  rw [hz, hl]
  rcases hw with hw | hw | hw
  · exact ⟨fun h => absurd h.2 (not_lt.2 hw), fun h => absurd h.2 (not_lt.2 hw)⟩
  · rw [hd] at hw; cases hw
  · rw [hw]

/-- `compute_*_bulk(recompute=True)` returns (or raises) exactly the same on any two objects whose
visible parameters agree, whatever has been cached, uploaded or computed on them before.  Missing: the case that there
are fewer widths of the redshift bins than mean redshifts, and that only on one of the objects an effect which needs
the divergent integral was on earlier; there it is false (`C01_stale_switch_false`). -/
theorem C01_recompute_history_independent_partial (N : Num) (b : Bulk) (s s' : PyObj)
    (h : s.par.visible = s'.par.visible) (hw : SwitchFine s s') :
    (computeBulk N true b s).1 = (computeBulk N true b s').1 :=
  (computeBulk_sim N b).fst (hw.sameVis h)

/-- In particular after any history it returns what a newly built object with the current parameters
returns, with or without `recompute`. -/
theorem C01_recompute_equals_fresh_partial (N : Num) (b : Bulk) (ops : List Op) (s : PyObj)
    (_hs : run N ops (fresh PyPar.default) = some s) (hw : s.par.WidthsFit) :
    (computeBulk N true b s).1 = (computeBulk N true b (fresh s.par.visible)).1 ∧
    (computeBulk N true b s).1 = (computeBulk N false b (fresh s.par.visible)).1 := by
  have h := C01_recompute_history_independent_partial N b s (fresh s.par.visible) rfl hw
  refine ⟨h, h.trans ?_⟩
  exact (computeBulk_same N b).fst ⟨rfl, rfl, rfl, rfl, rfl, rfl, rfl, rfl, rfl⟩

/-- The single-point methods `compute_corrfunc` and `compute_multipole` likewise. -/
theorem C01_point_history_independent_partial (N : Num) (s s' : PyObj)
    (h : s.par.visible = s'.par.visible) (hw : SwitchFine s s') :
    (∀ z r mu, (computeCorrfunc N z r mu true s).1 = (computeCorrfunc N z r mu true s').1) ∧
    (∀ z r l, (computeMultipole N z r l true s).1 = (computeMultipole N z r l true s').1) :=
  ⟨fun z r mu => (computeCorrfunc_sim N z r mu).fst (hw.sameVis h),
    fun z r l => (computeMultipole_sim N z r l).fst (hw.sameVis h)⟩

/-- Non-vacuity: two objects with the same visible parameters, one of which has everything cached, and
results that are not errors. -/
example : ∃ s s' : PyObj, s.par.visible = s'.par.visible ∧ SwitchFine s s' ∧ s.bg = none ∧ s'.bg ≠ none ∧ s'.ints ≠ [] ∧
    ∃ rows, (computeBulk wNum false .corrfunc (fresh s'.par.visible)).1 = .ok (.corrfunc rows) := by
  have h2 := corrfunc_fresh (N := wNum) (p := PyPar.default)
    (b := { wBg with comoving_distance := fun z => z / 0.67 })
    (c := ⟨1e-5, 100, [(1e-5, 0.8156), (100, 0.96)], [0.67]⟩)
    rfl rfl rfl (by simp [PyPar.default, generateRange])
  exact ⟨fresh PyPar.default, { fresh PyPar.default with bg := some wBg, ints := [⟨⟨0, 0, .int, .int⟩, [], wZero⟩] },
    rfl, Or.inr (Or.inr rfl), rfl, by simp, by simp, _, congrArg Prod.fst h2⟩

/-- C01 fails otherwise: once the correlation function has been computed with the effect `d2`, the internal switch
`divergent` stays on.  After switching `d2` off and setting two mean redshifts, `compute_corrfunc_bulk(recompute=True)`
reads the width of the second redshift bin, which does not exist; on a new object with the same settings it does not,
and returns a result. -/
theorem C01_stale_switch_false : ∃ (N : Num) (s : PyObj),
    run N [.setattr (.settable .has_d2) (.bool true), .computeBulk .corrfunc false,
      .setattr (.settable .has_d2) (.bool false), .setattr (.settable .z_mean) (.floats [1, 2])]
      (fresh PyPar.default) = some s ∧
    (computeBulk N true .corrfunc s).1 = .error .crash ∧
    ∃ rows, (computeBulk N true .corrfunc (fresh s.par.visible)).1 = .ok (.corrfunc rows) := by
  set p : PyPar := { PyPar.default with contrib := { PyPar.default.contrib with d2 := true } } with hp
  have h1 : exec wNum (.setattr (.settable .has_d2) (.bool true)) (fresh PyPar.default) = (.ok .unit, fresh p) := rfl
  have h2 : exec wNum (.computeBulk .corrfunc false) (fresh p) = _ :=
    corrfunc_fresh (N := wNum) (p := p) (b := wB) (c := wC)
      rfl rfl rfl (by simp [p, PyPar.default, generateRange])
      (by simp [PyPar.RenormOob, PyPar.afterRun, p, PyPar.default])
  have h3 : ∀ s, exec wNum (.setattr (.settable .has_d2) (.bool false)) s = (.ok .unit, PyObj.freeAll
      (s.upd fun q => { q with contrib := { q.contrib with d2 := false } })) := fun s => rfl
  have h4 : ∀ s, ∃ s', exec wNum (.setattr (.settable .z_mean) (.floats [1, 2])) s = (.ok .unit, s') ∧
      s'.par = { s.par with z_mean := [1, 2] } := by
    intro s
    have h : ∃ s', setattr .z_mean (.floats [1, 2]) s = (.ok (), s') ∧ s'.par = { s.par with z_mean := [1, 2] } := by
      unfold setattr checkFloats
      dsimp only
      rw [if_pos (by intro x hx; simp at hx; rcases hx with rfl | rfl <;> norm_num)]
      exact ⟨_, rfl, rfl⟩
    obtain ⟨s', h, h'⟩ := h
    exact ⟨s', Py.bind_ok h, h'⟩
  obtain ⟨s, hs, hpar⟩ := h4 (PyObj.freeAll (({ ready wNum p wB wC with cf := corrfuncRows wNum (ready wNum p wB wC) wB }
      : PyObj).upd fun q => { q with contrib := { q.contrib with d2 := false } }))
  set q : PyPar := { PyPar.default with
    divergent := true, k_min := max PyPar.default.k_min wC.k_first, k_max := min PyPar.default.k_max wC.k_last, z_mean := [1, 2] } with hq
  have hpar : s.par = q := hpar
  refine ⟨wNum, s, ?_, ?_, ?_⟩
  · rw [run_cons h1, run_cons h2, run_cons (h3 _), run_cons hs]; rfl
  · rw [C01_recompute_history_independent_partial wNum .corrfunc s (fresh s.par) rfl (Or.inr (Or.inr rfl)),
      (computeBulk_same wNum .corrfunc).fst (s := fresh s.par) (r := fresh s.par)
        ⟨rfl, rfl, rfl, rfl, rfl, rfl, rfl, rfl, rfl⟩, hpar]
    exact corrfunc_oob (N := wNum) (p := q) (b := wB) (c := wC) rfl rfl rfl
      (by simp [q, PyPar.default, generateRange]) ⟨rfl, by simp [PyPar.afterRun, q, PyPar.default]⟩
  · rw [(computeBulk_same wNum .corrfunc).fst (s := fresh s.par.visible) (r := fresh s.par.visible)
        ⟨rfl, rfl, rfl, rfl, rfl, rfl, rfl, rfl, rfl⟩, hpar]
    exact ⟨_, congrArg Prod.fst (corrfunc_fresh (N := wNum) (p := q.visible) (b := wB) (c := wC) rfl rfl rfl
      (by simp [q, PyPar.visible, PyPar.default, generateRange])
      (by simp [PyPar.RenormOob, PyPar.afterRun, q, PyPar.visible, PyPar.default, Contrib.divergent]))⟩

end Coffe
