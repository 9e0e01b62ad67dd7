import Verif.Model.Python.Compute
import Verif.Spec.Witness

/-!
# A concrete numerical back end used as witness

Simple but non-trivial: every stage succeeds and depends on part of what it reads.  Nothing in the
property statements depends on this file.
-/

namespace Coffe

/-- Toy back end: CLASS covers the wave numbers from 1e-5 to 100; the covariance is the sum of the samples
of the first galaxy bias and of the spectrum; the divergent integral depends on the mean redshifts. -/
noncomputable def wNum : Num where
  background := fun v => if 5 ≤ v.background_bins then some { wBg with comoving_distance := fun z => z / v.h } else none
  classRun := fun v => some ⟨1e-5, 100, [(1e-5, v.sigma8), (100, v.n_s)], [v.h]⟩
  plain := fun v _ => wConst v.k_max
  four := fun v => wConst v.z_mean.sum
  quad := fun _ => ⟨fun f => f (1 / 2), fun _ f => f (fun _ => 1 / 2)⟩
  cov := fun v _ _ _ _ _ _ => (v.galaxy1.map Prod.snd).sum + (v.spectrum.map Prod.snd).sum
  akima := fun l _ => (l.map Prod.snd).sum
  junk := fun _ => wZero
  top := fun _ => 25000

end Coffe
