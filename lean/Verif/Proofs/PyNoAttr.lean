import Verif.Proofs.PyCoherent

/-! # Helper lemmas: assignments to settable parameters raise no `AttributeError` -/

namespace Coffe
open Classical

/-- The method does not raise `AttributeError`. -/
def NoAttr {α : Type} (m : Py α) : Prop := ∀ s, (m s).1 ≠ .error .attributeError

theorem NoAttr.bind {α β : Type} {m : Py α} {f : α → Py β} (h : NoAttr m) (h' : ∀ a, NoAttr (f a)) :
    NoAttr (m >>= f) := by
  intro s
  rw [Py.bind_eq]
  have h1 := h s
  rcases hx : m s with ⟨o, t⟩
  rw [hx] at h1
  cases o with
  | error e => intro h; apply h1; injection h with h; exact congrArg _ h
  | ok a => exact h' a t

theorem na_store (f : PyPar → PyPar) (free : PyObj → PyObj) : NoAttr (store f free) := fun _ h => by cases h
theorem na_pure {α : Type} (a : α) : NoAttr (pure a : Py α) := fun _ h => by cases h
theorem na_get : NoAttr Py.get := fun _ h => by cases h
theorem na_raise {α : Type} {e : Err} (h : e ≠ .attributeError) : NoAttr (Py.raise e : Py α) := by
  intro s h'
  injection h' with h'
  exact h h'

/-- Closes `NoAttr` of a check. -/
macro "na_check" : tactic => `(tactic| (
  repeat' first
    | exact na_pure _
    | exact na_raise (by simp)
    | split))

theorem na_checkParameter (v : PyVal) (k : Kind) (a b : ℝ) : NoAttr (checkParameter v k a b) := by
  unfold checkParameter; na_check
theorem na_checkInt (v : PyVal) (a b : ℤ) : NoAttr (checkInt v a b) := by
  unfold checkInt; na_check
theorem na_toDouble (v : PyVal) : NoAttr (toDouble v) := by unfold toDouble; na_check
theorem na_toInt (v : PyVal) : NoAttr (toInt v) := by unfold toInt; na_check
theorem na_checkOmegas (x : ℝ) : NoAttr (checkOmegas x) := by unfold checkOmegas; na_check
theorem na_checkFloats (v : PyVal) (ok : ℝ → Prop) : NoAttr (checkFloats v ok) := by
  unfold checkFloats; na_check
theorem na_checkMultipoles (v : PyVal) : NoAttr (checkMultipoles v) := by unfold checkMultipoles; na_check
theorem na_checkPopulations (v : PyVal) : NoAttr (checkPopulations v) := by unfold checkPopulations; na_check
theorem na_checkDiscrete {α : Type} (v : PyVal) (f : ℤ → Option α) (g : String → Option α) :
    NoAttr (checkDiscrete v f g) := by unfold checkDiscrete; na_check

theorem na_guarded {v : PyVal} {k : Kind} {a b : ℝ} {old : PyPar → ℝ} {act : ℝ → Py Unit}
    (h : ∀ x, NoAttr (act x)) : NoAttr (guarded v k a b old act) := by
  unfold guarded
  refine NoAttr.bind (na_checkParameter _ _ _ _) fun x => NoAttr.bind na_get fun _ => ?_
  split_ifs
  · exact na_pure _
  · exact h x

set_option maxHeartbeats 1000000 in
theorem setattr_no_attr (n : Name) (v : PyVal) (hn : n ≠ .integrals_fftlog_sampling) : NoAttr (setattr n v) := by
  cases n <;> unfold setattr <;> dsimp only
  case verbose => exact na_store _ _
  case has_only_cross_correlations => exact na_store _ _
  case omega_cdm =>
    exact na_guarded fun x => NoAttr.bind na_get fun _ => NoAttr.bind (na_checkOmegas _) fun _ => na_store _ _
  case omega_m =>
    exact na_guarded fun x => NoAttr.bind na_get fun _ => NoAttr.bind (na_checkOmegas _) fun _ => na_store _ _
  case omega_baryon =>
    exact na_guarded fun x => NoAttr.bind na_get fun _ => NoAttr.bind (na_checkOmegas _) fun _ => na_store _ _
  case omega_gamma =>
    exact na_guarded fun x => NoAttr.bind na_get fun _ => NoAttr.bind (na_checkOmegas _) fun _ => na_store _ _
  case h => exact na_guarded fun x => na_store _ _
  case w0 => exact na_guarded fun x => na_store _ _
  case wa => exact na_guarded fun x => na_store _ _
  case n_s => exact na_guarded fun x => na_store _ _
  case T_cmb => exact na_guarded fun x => na_store _ _
  case N_ur => exact na_guarded fun x => na_store _ _
  case YHe => exact na_guarded fun x => na_store _ _
  case N_ncdm =>
    refine NoAttr.bind (na_checkInt _ _ _) fun x => NoAttr.bind na_get fun _ => ?_
    split_ifs
    · exact na_pure _
    · exact na_store _ _
  case m_ncdm =>
    refine na_guarded fun x => NoAttr.bind (na_store _ _) fun _ => NoAttr.bind na_get fun _ => ?_
    split_ifs
    · exact na_raise (by simp)
    · exact na_store _ _
  case sigma8 => exact na_guarded fun x => na_store _ _
  case A_s => exact NoAttr.bind (na_checkParameter _ _ _ _) fun x => na_store _ _
  case k_per_decade_for_bao => exact NoAttr.bind (na_toDouble _) fun x => na_store _ _
  case k_per_decade_for_pk => exact NoAttr.bind (na_toDouble _) fun x => na_store _ _
  case start_large_k_at_tau_h_over_tau_k => exact NoAttr.bind (na_toDouble _) fun x => na_store _ _
  case l_max_g => exact NoAttr.bind (na_toInt _) fun x => na_store _ _
  case l_max_ur => exact NoAttr.bind (na_toInt _) fun x => na_store _ _
  case tol_perturb_integration => exact NoAttr.bind (na_toDouble _) fun x => na_store _ _
  case radiation_streaming_trigger_tau_over_tau_k => exact NoAttr.bind (na_toDouble _) fun x => na_store _ _
  case ur_fluid_trigger_tau_over_tau_k => exact NoAttr.bind (na_toDouble _) fun x => na_store _ _
  case sep => exact NoAttr.bind (na_checkFloats _ _) fun x => na_store _ _
  case mu => exact NoAttr.bind (na_checkFloats _ _) fun x => na_store _ _
  case integrals_fftlog_sampling => exact absurd rfl hn
  case l => exact NoAttr.bind (na_checkMultipoles _) fun x => na_store _ _
  case z_mean => exact NoAttr.bind (na_checkFloats _ _) fun x => na_store _ _
  case z_min => exact NoAttr.bind (na_checkFloats _ _) fun x => na_store _ _
  case z_max => exact NoAttr.bind (na_checkFloats _ _) fun x => na_store _ _
  case number_density1 => exact NoAttr.bind (na_checkFloats _ _) fun x => na_store _ _
  case number_density2 => exact NoAttr.bind (na_checkFloats _ _) fun x => na_store _ _
  case covariance_populations => exact NoAttr.bind (na_checkPopulations _) fun x => na_store _ _
  case covariance_cosmic => exact na_store _ _
  case covariance_mixed => exact na_store _ _
  case covariance_poisson => exact na_store _ _
  case covariance_integration_method => exact NoAttr.bind (na_checkDiscrete _ _ _) fun x => na_store _ _
  case covariance_integration_sampling => exact NoAttr.bind (na_checkInt _ _ _) fun x => na_store _ _
  case covariance_interpolation_method => exact NoAttr.bind (na_checkDiscrete _ _ _) fun x => na_store _ _
  case pixelsize => exact NoAttr.bind (na_checkFloats _ _) fun x => na_store _ _
  case fsky => exact NoAttr.bind (na_checkFloats _ _) fun x => na_store _ _
  case deltaz => exact NoAttr.bind (na_checkFloats _ _) fun x => na_store _ _
  case integration_1d_type => exact NoAttr.bind (na_checkDiscrete _ _ _) fun x => na_store _ _
  case integration_1d_prec => exact NoAttr.bind (na_checkParameter _ _ _ _) fun x => na_store _ _
  case integration_sampling => exact NoAttr.bind (na_checkInt _ _ _) fun x => na_store _ _
  case background_sampling => exact NoAttr.bind (na_checkInt _ _ _) fun x => na_store _ _
  case has_binned_covariance => exact na_store _ _
  case has_density => exact na_store _ _
  case has_rsd => exact na_store _ _
  case has_lensing => exact na_store _ _
  case has_d1 => exact na_store _ _
  case has_d2 => exact na_store _ _
  case has_g1 => exact na_store _ _
  case has_g2 => exact na_store _ _
  case has_g3 => exact na_store _ _
  case has_g4 => exact na_store _ _
  case has_g5 => exact na_store _ _
  case has_flatsky_local => exact na_store _ _
  case has_flatsky_local_nonlocal => exact na_store _ _
  case has_flatsky_nonlocal => exact na_store _ _
  case pk_type => exact NoAttr.bind (na_checkDiscrete _ _ _) fun x => na_store _ _
  case k_min => exact NoAttr.bind (na_checkParameter _ _ _ _) fun x => na_store _ _
  case k_max => exact NoAttr.bind (na_checkParameter _ _ _ _) fun x => na_store _ _

end Coffe
