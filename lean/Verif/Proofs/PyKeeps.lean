import Verif.Proofs.PyHistory3
import Verif.Proofs.PyAssign
import Verif.Spec.PyDensity

/-! # Helper lemmas: what methods leave alone -/

namespace Coffe
open Classical

/-- The method does not change `f`. -/
def Keeps {α X : Type} (f : PyObj → X) (m : Py α) : Prop := ∀ s, f (m s).2 = f s

theorem Keeps.bind {α β X : Type} {f : PyObj → X} {m : Py α} {g : α → Py β} (h : Keeps f m)
    (h' : ∀ a, Keeps f (g a)) : Keeps f (m >>= g) := by
  intro s
  rw [Py.bind_eq]
  have h1 := h s
  rcases hx : m s with ⟨o, s'⟩
  rw [hx] at h1
  cases o with
  | error e => exact h1
  | ok a => exact (h' a s').trans h1

theorem Still.keeps {α X : Type} {f : PyObj → X} {m : Py α} (h : Still m) : Keeps f m := by
  intro s; rw [h s]

theorem keeps_modify {X : Type} {f : PyObj → X} {g : PyObj → PyObj} (h : ∀ s, f (g s) = f s) :
    Keeps f (Py.modify g) := h

theorem keeps_ite {α X : Type} {f : PyObj → X} {c : Prop} [Decidable c] {m m' : Py α} (h : Keeps f m)
    (h' : Keeps f m') : Keeps f (if c then m else m') := by split_ifs <;> assumption

theorem keeps_ensure {X : Type} {f : PyObj → X} {p : PyObj → Prop} {re : Bool} {i : Py Unit}
    (h : Keeps f i) : Keeps f (ensure p re i) := by
  unfold ensure
  exact Keeps.bind still_get.keeps fun s => keeps_ite h (still_pure _).keeps

theorem checkContributions_dens : Keeps PyObj.dens checkContributions := by
  intro s
  rw [checkContributions_eq]
  split_ifs <;> rfl

theorem backgroundInit_dens (N : Num) : Keeps PyObj.dens (backgroundInit N) := by
  intro s
  rw [backgroundInit_eq]
  split_ifs
  · rfl
  · cases N.background s.par.bgView <;> rfl

theorem powerSpectrumInit_dens (N : Num) : Keeps PyObj.dens (powerSpectrumInit N) := by
  intro s
  rw [powerSpectrumInit_eq]
  cases N.classRun s.par.classView <;> rfl

theorem integralsInit_dens (N : Num) : Keeps PyObj.dens (integralsInit N) := by
  intro s
  unfold integralsInit
  split
  · split_ifs <;> rfl
  · rfl

theorem corrfuncInit_dens (N : Num) : Keeps PyObj.dens (corrfuncInit N) := by
  intro s
  unfold corrfuncInit
  split <;> rfl

theorem multipolesInit_dens (N : Num) : Keeps PyObj.dens (multipolesInit N) := by
  intro s
  unfold multipolesInit
  split <;> rfl

theorem averageInit_dens (N : Num) : Keeps PyObj.dens (averageInit N) := by
  intro s
  unfold averageInit
  split
  · split_ifs <;> rfl
  · rfl

theorem covInit_dens (N : Num) : Keeps PyObj.dens (covInit N) := by
  intro s
  unfold covInit
  split
  · split <;> rfl
  · rfl

theorem acovInit_dens (N : Num) : Keeps PyObj.dens (acovInit N) := by
  intro s
  unfold acovInit
  split
  · split_ifs
    · rfl
    · split <;> rfl
  · rfl

theorem ensureBg_dens (N : Num) (re : Bool) : Keeps PyObj.dens (ensureBg N re) :=
  keeps_ensure (backgroundInit_dens N)
theorem ensurePs_dens (N : Num) (re : Bool) : Keeps PyObj.dens (ensurePs N re) :=
  keeps_ensure (powerSpectrumInit_dens N)
theorem ensureInts_dens (N : Num) (re : Bool) : Keeps PyObj.dens (ensureInts N re) :=
  keeps_ensure (integralsInit_dens N)

theorem maximumSeparation_dens (N : Num) (z dz : ℝ) : Keeps PyObj.dens (maximumSeparation N z dz) := by
  unfold maximumSeparation
  refine Keeps.bind (still_checkReal _ _ _).keeps fun _ => Keeps.bind (still_checkReal _ _ _).keeps fun _ =>
    Keeps.bind (ensureBg_dens N _) fun _ s => ?_
  split
  · split_ifs <;> rfl
  · rfl

theorem checkBins_dens (N : Num) (l : List (ℝ × ℝ)) : Keeps PyObj.dens (checkBins N l) := by
  induction l with
  | nil => intro s; rfl
  | cons a l ih =>
    unfold checkBins
    simp only [List.forM]
    exact Keeps.bind (Keeps.bind (maximumSeparation_dens N _ _) fun _ => (still_pure _).keeps) fun _ => ih

theorem computeBulk_dens (N : Num) (re : Bool) (b : Bulk) : Keeps PyObj.dens (computeBulk N re b) := by
  cases b <;> unfold computeBulk <;> dsimp only
  case corrfunc =>
    unfold computeCorrfuncBulk
    exact Keeps.bind still_coordsC.keeps fun _ => Keeps.bind checkContributions_dens fun _ =>
      Keeps.bind (ensureBg_dens N _) fun _ => Keeps.bind (ensurePs_dens N _) fun _ =>
      Keeps.bind (ensureInts_dens N _) fun _ => Keeps.bind (keeps_ensure (corrfuncInit_dens N)) fun _ =>
      Keeps.bind still_get.keeps fun _ => (still_pure _).keeps
  case multipoles =>
    unfold computeMultipolesBulk
    exact Keeps.bind still_coordsM.keeps fun _ => Keeps.bind checkContributions_dens fun _ =>
      Keeps.bind (ensureBg_dens N _) fun _ => Keeps.bind (ensurePs_dens N _) fun _ =>
      Keeps.bind (ensureInts_dens N _) fun _ => Keeps.bind (keeps_ensure (multipolesInit_dens N)) fun _ =>
      Keeps.bind still_get.keeps fun _ => (still_pure _).keeps
  case average =>
    unfold computeAverageBulk
    exact Keeps.bind still_coordsA.keeps fun _ => Keeps.bind checkContributions_dens fun _ =>
      Keeps.bind (ensureBg_dens N _) fun _ => Keeps.bind (ensurePs_dens N _) fun _ =>
      Keeps.bind (ensureInts_dens N _) fun _ => Keeps.bind (keeps_ensure (averageInit_dens N)) fun _ =>
      Keeps.bind still_get.keeps fun _ => (still_pure _).keeps
  case covariance =>
    unfold computeCovarianceBulk
    refine Keeps.bind still_coordsM.keeps fun _ => Keeps.bind checkContributions_dens fun _ =>
      Keeps.bind still_get.keeps fun _ => ?_
    dsimp only
    refine keeps_ite (Keeps.bind (still_raise _).keeps fun _ => ?_) ?_ <;>
    exact Keeps.bind (ensurePs_dens N _) fun _ =>
      Keeps.bind (ensureBg_dens N _) fun _ => Keeps.bind still_get.keeps fun _ =>
      Keeps.bind (checkBins_dens N _) fun _ => Keeps.bind (keeps_ensure (covInit_dens N)) fun _ =>
      Keeps.bind still_get.keeps fun _ => (still_pure _).keeps
  case averageCovariance =>
    unfold computeAverageCovarianceBulk
    refine Keeps.bind still_coordsM.keeps fun _ => Keeps.bind checkContributions_dens fun _ =>
      Keeps.bind still_get.keeps fun _ => ?_
    dsimp only
    refine keeps_ite (Keeps.bind (still_raise _).keeps fun _ => ?_) ?_ <;>
    exact Keeps.bind (ensurePs_dens N _) fun _ =>
      Keeps.bind (ensureBg_dens N _) fun _ => Keeps.bind still_get.keeps fun _ =>
      Keeps.bind (checkBins_dens N _) fun _ => Keeps.bind (keeps_ensure (acovInit_dens N)) fun _ =>
      Keeps.bind still_get.keeps fun _ => (still_pure _).keeps

theorem signalHere_still (N : Num) (z r mu : ℝ) (l : ℕ) (out : OutputType) :
    Still (signalHere N z r mu l out) := by
  intro s
  unfold signalHere
  split <;> rfl

theorem computeCorrfunc_dens (N : Num) (z r mu : ℝ) (re : Bool) :
    Keeps PyObj.dens (computeCorrfunc N z r mu re) := by
  unfold computeCorrfunc
  exact Keeps.bind still_coordsC.keeps fun _ => Keeps.bind checkContributions_dens fun _ =>
    Keeps.bind (ensureBg_dens N _) fun _ => Keeps.bind (ensurePs_dens N _) fun _ =>
    Keeps.bind (ensureInts_dens N _) fun _ => Keeps.bind (still_checkReal _ _ _).keeps fun _ =>
    Keeps.bind (still_checkReal _ _ _).keeps fun _ => Keeps.bind (still_checkReal _ _ _).keeps fun _ =>
    (signalHere_still _ _ _ _ _ _).keeps

theorem computeMultipole_dens (N : Num) (z r : ℝ) (l : ℤ) (re : Bool) :
    Keeps PyObj.dens (computeMultipole N z r l re) := by
  unfold computeMultipole
  exact Keeps.bind still_coordsM.keeps fun _ => Keeps.bind checkContributions_dens fun _ =>
    Keeps.bind (ensureBg_dens N _) fun _ => Keeps.bind (ensurePs_dens N _) fun _ =>
    Keeps.bind (ensureInts_dens N _) fun _ => Keeps.bind (still_checkReal _ _ _).keeps fun _ =>
    Keeps.bind (still_checkReal _ _ _).keeps fun _ => Keeps.bind (still_checkReal _ _ _).keeps fun _ =>
    (signalHere_still _ _ _ _ _ _).keeps

theorem integralAt_dens (N : Num) (r : ℝ) (n l : ℤ) : Keeps PyObj.dens (integralAt N r n l) := by
  unfold integralAt
  refine Keeps.bind (still_checkReal _ _ _).keeps fun _ =>
    Keeps.bind (still_checkReal _ _ _).keeps fun _ => Keeps.bind (still_checkReal _ _ _).keeps fun _ =>
    Keeps.bind (ensureBg_dens N _) fun _ => Keeps.bind (ensurePs_dens N _) fun _ =>
    Keeps.bind (ensureInts_dens N _) fun _ => Keeps.bind still_get.keeps fun s => ?_
  split
  · exact (still_raise _).keeps
  · exact keeps_ite (still_raise _).keeps (still_pure _).keeps

theorem backgroundAt_dens (N : Num) (f : Bg → ℝ → ℝ) (z : ℝ) : Keeps PyObj.dens (backgroundAt N f z) := by
  unfold backgroundAt
  refine Keeps.bind (still_checkReal _ _ _).keeps fun _ => Keeps.bind (ensureBg_dens N _) fun _ s => ?_
  split <;> rfl

theorem spectrumAt_dens (N : Num) (two : Bool) (f : PkType → Spectrum → Bg → ℝ) (k z1 z2 : ℝ) :
    Keeps PyObj.dens (spectrumAt N two f k z1 z2) := by
  unfold spectrumAt
  refine Keeps.bind still_get.keeps fun _ => Keeps.bind (still_checkReal _ _ _).keeps fun _ =>
    Keeps.bind (still_checkReal _ _ _).keeps fun _ => Keeps.bind (still_checkReal _ _ _).keeps fun _ =>
    Keeps.bind (ensurePs_dens N _) fun _ => Keeps.bind (ensureBg_dens N _) fun _ s => ?_
  split
  · split_ifs <;> rfl
  · rfl

theorem setBias_dens (n : BiasName) (x y : List ℝ) : Keeps PyObj.dens (setBias n x y) := by
  unfold setBias
  exact Keeps.bind (still_checkSpline x y).keeps fun _ => keeps_modify fun s => rfl

theorem setPowerSpectrumLinear_dens (k pk : List ℝ) : Keeps PyObj.dens (setPowerSpectrumLinear k pk) := by
  unfold setPowerSpectrumLinear
  dsimp only
  refine keeps_ite (Keeps.bind (still_raise _).keeps fun _ => ?_) ?_ <;>
  refine keeps_ite (Keeps.bind (still_raise _).keeps fun _ => ?_) ?_ <;>
  · refine Keeps.bind (keeps_modify fun s => rfl) fun _ => ?_
    split
    · refine Keeps.bind (keeps_modify fun s => rfl) fun _ => ?_
      refine keeps_ite (Keeps.bind (still_raise _).keeps fun _ => ?_) ?_ <;>
      exact keeps_modify fun s => rfl
    · exact (still_raise _).keeps

set_option maxHeartbeats 2000000 in
/-- Assigning the current value of a parameter to it changes no parameter. -/
theorem self_par (n : Name) (s : PyObj) : ((setattr n (getattr s.par n)) s).2.par = s.par := by
  have hg : ∀ {a b x : ℝ} {old : PyPar → ℝ} {act : ℝ → Py Unit}, old s.par = x →
      ((guarded (.float x) .intFloat a b old act) s).2.par = s.par := by
    intro a b x old act hx
    unfold guarded
    have h1 := checkParameter_ends (.float x) .intFloat a b s
    unfold Ends at h1
    rw [Py.bind_eq]
    rcases hc : checkParameter (.float x) .intFloat a b s with ⟨o, s'⟩
    rw [hc] at h1
    cases o with
    | error e => exact congrArg PyObj.par h1
    | ok y =>
      obtain ⟨rfl, h2, -, -⟩ := h1
      simp only [PyVal.asKind, Option.some.injEq] at h2
      subst h2
      dsimp only
      rw [Py.bind_ok (Py.get_eq s')]
      rw [if_pos (by rw [hx]; unfold allclose; simp only [sub_self, abs_zero]; positivity)]
      rfl
  have hr : ∀ {k : Kind} {a b x : ℝ} {f : ℝ → PyPar → PyPar} {free : PyObj → PyObj},
      (free (s.upd (f x))).par = s.par → PyVal.asKind (.float x) k = some x →
      ((do let x ← checkParameter (.float x) k a b; store (f x) free : Py Unit) s).2.par = s.par := by
    intro k a b x f free hf hk
    unfold checkParameter
    rw [hk]
    dsimp only
    split_ifs
    · rfl
    · rfl
    · exact hf
  have hl : ∀ {x : List ℝ} {ok : ℝ → Prop} {f : List ℝ → PyPar → PyPar} {free : PyObj → PyObj},
      (free (s.upd (f x))).par = s.par →
      ((do let x ← checkFloats (.floats x) ok; store (f x) free : Py Unit) s).2.par = s.par := by
    intro x ok f free hf
    unfold checkFloats
    dsimp only
    split_ifs
    · exact hf
    · rfl
  have hi : ∀ {x a b : ℤ} {f : ℤ → PyPar → PyPar} {free : PyObj → PyObj},
      (free (s.upd (f x))).par = s.par →
      ((do let x ← checkInt (.int x) a b; store (f x) free : Py Unit) s).2.par = s.par := by
    intro x a b f free hf
    unfold checkInt
    dsimp only
    split_ifs
    · rfl
    · rfl
    · exact hf
  cases n <;> unfold setattr getattr <;> dsimp only
  case omega_cdm | omega_m | omega_baryon | omega_gamma | h | w0 | wa | n_s | T_cmb | N_ur | YHe | sigma8 |
      m_ncdm => all_goals (refine hg ?_; rfl)
  case A_s | k_min | k_max | integration_1d_prec => all_goals (refine hr ?_ ?_ <;> rfl)
  case sep | mu | z_mean | z_min | z_max | deltaz | number_density1 | number_density2 | pixelsize | fsky =>
    all_goals (refine hl ?_; rfl)
  case covariance_integration_sampling | integration_sampling | background_sampling =>
    all_goals (refine hi ?_; rfl)
  case integrals_fftlog_sampling =>
    unfold checkInt
    dsimp only
    split_ifs <;> rfl
  case N_ncdm =>
    unfold checkInt
    dsimp only
    split_ifs
    · rfl
    · rfl
    · rw [Py.bind_ok (show (pure s.par.N_ncdm : Py ℤ) s = (.ok _, s) from rfl), Py.bind_ok (Py.get_eq s)]
      rw [if_pos (by unfold allclose; simp only [sub_self, abs_zero]; positivity)]
      rfl
  case l =>
    unfold checkMultipoles
    dsimp only
    split_ifs
    · rw [Py.bind_ok (Py.pure_eq _ s)]
      have : (s.par.l.map fun n : ℕ => (n : ℤ)).map Int.toNat = s.par.l := by
        rw [List.map_map]
        conv_rhs => rw [← List.map_id s.par.l]
        exact List.map_congr_left fun n _ => by simp
      rw [this]
      rfl
    · rfl
  case covariance_populations =>
    unfold checkPopulations
    dsimp only
    split_ifs <;> rfl
  case pk_type =>
    have : pkOfStr (pkName s.par.pk_type) = some s.par.pk_type := by cases s.par.pk_type <;> decide
    unfold checkDiscrete
    dsimp only
    rw [this]; rfl
  case integration_1d_type =>
    have : int1dOfStr (int1dName s.par.integration_1d_type) = some s.par.integration_1d_type := by
      cases s.par.integration_1d_type <;> decide
    unfold checkDiscrete
    dsimp only
    rw [this]; rfl
  case covariance_integration_method =>
    have : covMethodOfStr (covMethodName s.par.covariance_integration_method) =
        some s.par.covariance_integration_method := by
      cases s.par.covariance_integration_method <;> decide
    unfold checkDiscrete
    dsimp only
    rw [this]; rfl
  case covariance_interpolation_method =>
    have : interp2dOfStr (interp2dName s.par.covariance_interpolation_method) =
        some s.par.covariance_interpolation_method := by
      cases s.par.covariance_interpolation_method <;> decide
    unfold checkDiscrete
    dsimp only
    rw [this]; rfl
  all_goals rfl

end Coffe
