import Verif.Proofs.PyRecompute

/-! # Helper lemmas: bulk methods with `recompute=True` -/

namespace Coffe
open Classical

/-- The common prefix of the signal methods, everything recomputed. -/
theorem prefix_sim (N : Num) {β : Type} {k k' : Unit → Py β} {R : PyObj → PyObj → Prop}
    (hk : Sim (Tabs N) (k ()) (k' ()) R) :
    Sim SameVis
      (do checkContributions; ensureBg N true; ensurePs N true; ensureInts N true; k ())
      (do checkContributions; ensureBg N true; ensurePs N true; ensureInts N true; k' ()) R := by
  refine Sim.bind checkContributions_vis fun _ => ?_
  unfold ensureBg ensurePs ensureInts
  simp only [ensure_true]
  exact Sim.bind (backgroundInit_sim N) fun _ => Sim.bind (powerSpectrumInit_sim N) fun _ =>
    Sim.bind (integralsInit_sim N) fun _ => hk

theorem computeBulk_sim (N : Num) (b : Bulk) :
    Sim SameVis (computeBulk N true b) (computeBulk N true b) (fun _ _ => True) := by
  cases b
  · unfold computeBulk computeCorrfuncBulk
    refine Sim.bind (checkCoordsCorrfunc_sim fun _ _ h => h.core) fun _ => prefix_sim N (k := fun _ => _) (k' := fun _ => _) ?_
    rw [ensure_true]
    exact Sim.bind (corrfuncInit_sim N) fun _ =>
      (Sim.ret (f := fun s => Out.corrfunc s.cf) fun s r h => congrArg Out.corrfunc h).mono
        (fun _ _ h => h) fun _ _ _ => trivial
  · unfold computeBulk computeMultipolesBulk
    refine Sim.bind (checkCoordsMultipoles_sim fun _ _ h => h.core) fun _ => prefix_sim N (k := fun _ => _) (k' := fun _ => _) ?_
    rw [ensure_true]
    exact Sim.bind (multipolesInit_sim N) fun _ =>
      (Sim.ret (f := fun s => Out.multipoles s.mp) fun s r h => congrArg Out.multipoles h).mono
        (fun _ _ h => h) fun _ _ _ => trivial
  · unfold computeBulk computeAverageBulk
    refine Sim.bind (checkCoordsAverage_sim fun _ _ h => h.core) fun _ => prefix_sim N (k := fun _ => _) (k' := fun _ => _) ?_
    rw [ensure_true]
    exact Sim.bind (averageInit_sim N) fun _ =>
      (Sim.ret (f := fun s => Out.average s.amp) fun s r h => congrArg Out.average h).mono
        (fun _ _ h => h) fun _ _ _ => trivial
  · unfold computeBulk computeCovarianceBulk
    refine Sim.bind (checkCoordsMultipoles_sim fun _ _ h => h.core) fun _ => ?_
    refine Sim.bind checkContributions_vis fun _ => ?_
    refine Sim.read (fun s r h => by rw [h.eq]) fun s => ?_
    dsimp only
    split_ifs
    rotate_left
    · exact Sim.raise_bind
    unfold ensureBg ensurePs
    simp only [ensure_true]
    refine Sim.bind (powerSpectrumInit_sim' N) fun _ => Sim.bind (backgroundInit_sim' N) fun _ => ?_
    refine Sim.read (fun s r h => by rw [h.eq]) fun s => ?_
    refine Sim.bind (checkBins_sim N _) fun _ => Sim.bind (covInit_sim N) fun _ => ?_
    exact (Sim.ret (f := fun s => Out.covariance s.cov) fun s r h => congrArg Out.covariance h).mono
        (fun _ _ h => h) fun _ _ _ => trivial
  · unfold computeBulk computeAverageCovarianceBulk
    refine Sim.bind (checkCoordsMultipoles_sim fun _ _ h => h.core) fun _ => ?_
    refine Sim.bind checkContributions_vis fun _ => ?_
    refine Sim.read (fun s r h => by rw [h.eq]) fun s => ?_
    dsimp only
    split_ifs
    rotate_left
    · exact Sim.raise_bind
    unfold ensureBg ensurePs
    simp only [ensure_true]
    refine Sim.bind (powerSpectrumInit_sim' N) fun _ => Sim.bind (backgroundInit_sim' N) fun _ => ?_
    refine Sim.read (fun s r h => by rw [h.eq]) fun s => ?_
    refine Sim.bind (checkBins_sim N _) fun _ => Sim.bind (acovInit_sim N) fun _ => ?_
    exact (Sim.ret (f := fun s => Out.averageCovariance s.acov)
      fun s r h => congrArg Out.averageCovariance h).mono (fun _ _ h => h) fun _ _ _ => trivial

theorem computeCorrfunc_sim (N : Num) (z x mu : ℝ) :
    Sim SameVis (computeCorrfunc N z x mu true) (computeCorrfunc N z x mu true) (fun _ _ => True) := by
  unfold computeCorrfunc
  refine Sim.bind (checkCoordsCorrfunc_sim fun _ _ h => h.core) fun _ => prefix_sim N (k := fun _ => _) (k' := fun _ => _) ?_
  exact Sim.bind (checkReal_sim _ _ _) fun _ => Sim.bind (checkReal_sim _ _ _) fun _ =>
    Sim.bind (checkReal_sim _ _ _) fun _ => (signalHere_sim N _ _ _ _ _).mono (fun _ _ h => h)
      fun _ _ _ => trivial

theorem computeMultipole_sim (N : Num) (z x : ℝ) (l : ℤ) :
    Sim SameVis (computeMultipole N z x l true) (computeMultipole N z x l true) (fun _ _ => True) := by
  unfold computeMultipole
  refine Sim.bind (checkCoordsMultipoles_sim fun _ _ h => h.core) fun _ => prefix_sim N (k := fun _ => _) (k' := fun _ => _) ?_
  exact Sim.bind (checkReal_sim _ _ _) fun _ => Sim.bind (checkReal_sim _ _ _) fun _ =>
    Sim.bind (checkReal_sim _ _ _) fun _ => (signalHere_sim N _ _ _ _ _).mono (fun _ _ h => h)
      fun _ _ _ => trivial

end Coffe
