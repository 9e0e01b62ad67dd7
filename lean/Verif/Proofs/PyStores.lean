import Verif.Proofs.PyKeeps

/-! # Helper lemmas: what an assignment stores -/

namespace Coffe
open Classical

/-- How the parameters may look after an assignment that got past its checks. -/
def Stores (n : Name) (p p' : PyPar) : Prop :=
  match n with
  | .verbose => ∃ x, p' = { p with verbose := x }
  | .has_only_cross_correlations => ∃ x, p' = { p with only_cross_correlations := x }
  | .omega_cdm => ∃ x, p' = PyPar.balance { p with Omega0_cdm := x, Omega0_m := x + p.Omega0_baryon }
  | .omega_m => ∃ x, p' = PyPar.balance { p with Omega0_m := x, Omega0_cdm := x - p.Omega0_baryon - p.Omega0_nu }
  | .omega_baryon => ∃ x, p' = PyPar.balance { p with Omega0_baryon := x, Omega0_cdm := p.Omega0_m - x - p.Omega0_nu }
  | .omega_gamma => ∃ x, p' = PyPar.balance { p with Omega0_gamma := x }
  | .h => ∃ x, p' = PyPar.balance { p with h := x }
  | .w0 => ∃ x, p' = { p with w0 := x }
  | .wa => ∃ x, p' = { p with wa := x }
  | .n_s => ∃ x, p' = { p with n_s := x }
  | .T_cmb => ∃ x, p' = { p with T_cmb := x }
  | .N_ur => ∃ x, p' = { p with N_ur := x }
  | .YHe => ∃ x, p' = { p with YHe := x }
  | .N_ncdm => ∃ x, p' = { p with N_ncdm := x }
  | .m_ncdm => ∃ x, p' = { p with m_ncdm := x } ∨
      p' = PyPar.balance { p with
        m_ncdm := x, Omega0_nu := x / 93.14 / p.h / p.h
        Omega0_cdm := p.Omega0_m - p.Omega0_baryon - x / 93.14 / p.h / p.h }
  | .sigma8 => ∃ x, p' = { p with sigma8 := x }
  | .A_s => ∃ x, p' = { p with A_s := x }
  | .k_per_decade_for_bao => ∃ x, p' = { p with prec := { p.prec with k_per_decade_for_bao := x } }
  | .k_per_decade_for_pk => ∃ x, p' = { p with prec := { p.prec with k_per_decade_for_pk := x } }
  | .start_large_k_at_tau_h_over_tau_k => ∃ x, p' = { p with prec := { p.prec with start_large_k_at_tau_h_over_tau_k := x } }
  | .l_max_g => ∃ x, p' = { p with prec := { p.prec with l_max_g := x } }
  | .l_max_ur => ∃ x, p' = { p with prec := { p.prec with l_max_ur := x } }
  | .tol_perturb_integration => ∃ x, p' = { p with prec := { p.prec with tol_perturb_integration := x } }
  | .radiation_streaming_trigger_tau_over_tau_k => ∃ x, p' = { p with prec := { p.prec with radiation_streaming_trigger_tau_over_tau_k := x } }
  | .ur_fluid_trigger_tau_over_tau_k => ∃ x, p' = { p with prec := { p.prec with ur_fluid_trigger_tau_over_tau_k := x } }
  | .sep => ∃ x, p' = { p with sep := x }
  | .mu => ∃ x, p' = { p with mu := x }
  | .integrals_fftlog_sampling => False
  | .l => ∃ x, p' = { p with l := x }
  | .z_mean => ∃ x, p' = { p with z_mean := x }
  | .z_min => ∃ x, p' = { p with z_min := x }
  | .z_max => ∃ x, p' = { p with z_max := x }
  | .number_density1 => ∃ x, p' = { p with density1 := x }
  | .number_density2 => ∃ x, p' = { p with density2 := x }
  | .covariance_populations => ∃ x, p' = { p with covariance_pop := x }
  | .covariance_cosmic => ∃ x, p' = { p with covariance_cosmic := x }
  | .covariance_mixed => ∃ x, p' = { p with covariance_mixed := x }
  | .covariance_poisson => ∃ x, p' = { p with covariance_poisson := x }
  | .covariance_integration_method => ∃ x, p' = { p with covariance_integration_method := x }
  | .covariance_integration_sampling => ∃ x, p' = { p with covariance_integration_bins := x }
  | .covariance_interpolation_method => ∃ x, p' = { p with covariance_interpolation_method := x }
  | .pixelsize => ∃ x, p' = { p with pixelsize := x }
  | .fsky => ∃ x, p' = { p with fsky := x }
  | .deltaz => ∃ x, p' = { p with deltaz := x }
  | .integration_1d_type => ∃ x, p' = { p with integration_1d_type := x }
  | .integration_1d_prec => ∃ x, p' = { p with integration_1d_prec := x }
  | .integration_sampling => ∃ x, p' = { p with integration_bins := x }
  | .background_sampling => ∃ x, p' = { p with background_bins := x }
  | .has_binned_covariance => ∃ x, p' = { p with covariance_window := x }
  | .has_density => ∃ b, p' = { p with contrib := { p.contrib with den := b } }
  | .has_rsd => ∃ b, p' = { p with contrib := { p.contrib with rsd := b } }
  | .has_lensing => ∃ b, p' = { p with contrib := { p.contrib with len := b } }
  | .has_d1 => ∃ b, p' = { p with contrib := { p.contrib with d1 := b } }
  | .has_d2 => ∃ b, p' = { p with contrib := { p.contrib with d2 := b } }
  | .has_g1 => ∃ b, p' = { p with contrib := { p.contrib with g1 := b } }
  | .has_g2 => ∃ b, p' = { p with contrib := { p.contrib with g2 := b } }
  | .has_g3 => ∃ b, p' = { p with contrib := { p.contrib with g3 := b } }
  | .has_g4 => ∃ b, p' = { p with contrib := { p.contrib with g4 := b } }
  | .has_g5 => ∃ b, p' = { p with contrib := { p.contrib with g5 := b } }
  | .has_flatsky_local => ∃ x, p' = { p with flatsky_local := x }
  | .has_flatsky_local_nonlocal => ∃ x, p' = { p with flatsky_local_nonlocal := x }
  | .has_flatsky_nonlocal => ∃ x, p' = { p with flatsky_nonlocal := x }
  | .pk_type => ∃ x, p' = { p with pk_type := x }
  | .k_min => ∃ x, p' = { p with k_min := x }
  | .k_max => ∃ x, p' = { p with k_max := x }

theorem Post.store_bind {β : Type} {P : PyObj → Prop} {f : PyPar → PyPar} {free : PyObj → PyObj}
    {g : Unit → Py β} {s : PyObj} (h : Post P (g ()) (free (s.upd f))) :
    Post P (store f free >>= g) s := h

theorem Post.get_bind {β : Type} {P : PyObj → Prop} {g : PyObj → Py β} {s : PyObj}
    (h : Post P (g s) s) : Post P (Py.get >>= g) s := h

set_option maxHeartbeats 1000000 in
/-- A property that holds before an assignment and after storing holds after the assignment. -/
theorem setattr_post (n : Name) (v : PyVal) (s : PyObj) (P : PyObj → Prop) (h : P s)
    (hp : ∀ s', Stores n s.par s'.par → P s') : Post P (setattr n v) s := by
  cases n <;> unfold setattr <;> dsimp only
  case verbose => exact hp _ ⟨v.truth, rfl⟩
  case has_only_cross_correlations => exact hp _ ⟨v.truth, rfl⟩
  case omega_cdm =>
    exact Post.guarded h fun x => Post.bind_still still_get h fun _ =>
      Post.bind_still (still_checkOmegas _) h fun _ => hp _ ⟨x, rfl⟩
  case omega_m =>
    exact Post.guarded h fun x => Post.bind_still still_get h fun _ =>
      Post.bind_still (still_checkOmegas _) h fun _ => hp _ ⟨x, rfl⟩
  case omega_baryon =>
    exact Post.guarded h fun x => Post.bind_still still_get h fun _ =>
      Post.bind_still (still_checkOmegas _) h fun _ => hp _ ⟨x, rfl⟩
  case omega_gamma =>
    exact Post.guarded h fun x => Post.bind_still still_get h fun _ =>
      Post.bind_still (still_checkOmegas _) h fun _ => hp _ ⟨x, rfl⟩
  case h => exact Post.guarded h fun x => hp _ ⟨x, rfl⟩
  case w0 => exact Post.guarded h fun x => hp _ ⟨x, rfl⟩
  case wa => exact Post.guarded h fun x => hp _ ⟨x, rfl⟩
  case n_s => exact Post.guarded h fun x => hp _ ⟨x, rfl⟩
  case T_cmb => exact Post.guarded h fun x => hp _ ⟨x, rfl⟩
  case N_ur => exact Post.guarded h fun x => hp _ ⟨x, rfl⟩
  case YHe => exact Post.guarded h fun x => hp _ ⟨x, rfl⟩
  case N_ncdm =>
    refine Post.bind_still (still_checkInt _ _ _) h fun x => Post.bind_still still_get h fun _ => ?_
    split_ifs
    · exact h
    · exact hp _ ⟨x, rfl⟩
  case m_ncdm =>
    refine Post.guarded h fun x => Post.store_bind (Post.get_bind ?_)
    split_ifs
    · exact hp (s.upd fun p => { p with m_ncdm := x }) ⟨x, Or.inl rfl⟩
    · exact hp _ ⟨x, Or.inr rfl⟩
  case sigma8 => exact Post.guarded h fun x => hp _ ⟨x, rfl⟩
  case A_s => exact Post.bind_still (still_checkParameter _ _ _ _) h fun x => hp _ ⟨x, rfl⟩
  case k_per_decade_for_bao => exact Post.bind_still (still_toDouble _) h fun x => hp _ ⟨x, rfl⟩
  case k_per_decade_for_pk => exact Post.bind_still (still_toDouble _) h fun x => hp _ ⟨x, rfl⟩
  case start_large_k_at_tau_h_over_tau_k => exact Post.bind_still (still_toDouble _) h fun x => hp _ ⟨x, rfl⟩
  case l_max_g => exact Post.bind_still (still_toInt _) h fun x => hp _ ⟨x, rfl⟩
  case l_max_ur => exact Post.bind_still (still_toInt _) h fun x => hp _ ⟨x, rfl⟩
  case tol_perturb_integration => exact Post.bind_still (still_toDouble _) h fun x => hp _ ⟨x, rfl⟩
  case radiation_streaming_trigger_tau_over_tau_k => exact Post.bind_still (still_toDouble _) h fun x => hp _ ⟨x, rfl⟩
  case ur_fluid_trigger_tau_over_tau_k => exact Post.bind_still (still_toDouble _) h fun x => hp _ ⟨x, rfl⟩
  case sep => exact Post.bind_still (still_checkFloats _ _) h fun x => hp _ ⟨x, rfl⟩
  case mu => exact Post.bind_still (still_checkFloats _ _) h fun x => hp _ ⟨x, rfl⟩
  case integrals_fftlog_sampling => exact Post.bind_still (still_checkInt _ _ _) h fun x => h
  case l => exact Post.bind_still (still_checkMultipoles _) h fun x => hp _ ⟨x, rfl⟩
  case z_mean => exact Post.bind_still (still_checkFloats _ _) h fun x => hp _ ⟨x, rfl⟩
  case z_min => exact Post.bind_still (still_checkFloats _ _) h fun x => hp _ ⟨x, rfl⟩
  case z_max => exact Post.bind_still (still_checkFloats _ _) h fun x => hp _ ⟨x, rfl⟩
  case number_density1 => exact Post.bind_still (still_checkFloats _ _) h fun x => hp _ ⟨x, rfl⟩
  case number_density2 => exact Post.bind_still (still_checkFloats _ _) h fun x => hp _ ⟨x, rfl⟩
  case covariance_populations => exact Post.bind_still (still_checkPopulations _) h fun x => hp _ ⟨x, rfl⟩
  case covariance_cosmic => exact hp _ ⟨v.truth, rfl⟩
  case covariance_mixed => exact hp _ ⟨v.truth, rfl⟩
  case covariance_poisson => exact hp _ ⟨v.truth, rfl⟩
  case covariance_integration_method => exact Post.bind_still (still_checkDiscrete _ _ _) h fun x => hp _ ⟨x, rfl⟩
  case covariance_integration_sampling => exact Post.bind_still (still_checkInt _ _ _) h fun x => hp _ ⟨x, rfl⟩
  case covariance_interpolation_method => exact Post.bind_still (still_checkDiscrete _ _ _) h fun x => hp _ ⟨x, rfl⟩
  case pixelsize => exact Post.bind_still (still_checkFloats _ _) h fun x => hp _ ⟨x, rfl⟩
  case fsky => exact Post.bind_still (still_checkFloats _ _) h fun x => hp _ ⟨x, rfl⟩
  case deltaz => exact Post.bind_still (still_checkFloats _ _) h fun x => hp _ ⟨x, rfl⟩
  case integration_1d_type => exact Post.bind_still (still_checkDiscrete _ _ _) h fun x => hp _ ⟨x, rfl⟩
  case integration_1d_prec => exact Post.bind_still (still_checkParameter _ _ _ _) h fun x => hp _ ⟨x, rfl⟩
  case integration_sampling => exact Post.bind_still (still_checkInt _ _ _) h fun x => hp _ ⟨x, rfl⟩
  case background_sampling => exact Post.bind_still (still_checkInt _ _ _) h fun x => hp _ ⟨x, rfl⟩
  case has_binned_covariance => exact hp _ ⟨v.truth, rfl⟩
  case has_density => exact hp _ ⟨v.truth, rfl⟩
  case has_rsd => exact hp _ ⟨v.truth, rfl⟩
  case has_lensing => exact hp _ ⟨v.truth, rfl⟩
  case has_d1 => exact hp _ ⟨v.truth, rfl⟩
  case has_d2 => exact hp _ ⟨v.truth, rfl⟩
  case has_g1 => exact hp _ ⟨v.truth, rfl⟩
  case has_g2 => exact hp _ ⟨v.truth, rfl⟩
  case has_g3 => exact hp _ ⟨v.truth, rfl⟩
  case has_g4 => exact hp _ ⟨v.truth, rfl⟩
  case has_g5 => exact hp _ ⟨v.truth, rfl⟩
  case has_flatsky_local => exact hp _ ⟨v.truth, rfl⟩
  case has_flatsky_local_nonlocal => exact hp _ ⟨v.truth, rfl⟩
  case has_flatsky_nonlocal => exact hp _ ⟨v.truth, rfl⟩
  case pk_type => exact Post.bind_still (still_checkDiscrete _ _ _) h fun x => hp _ ⟨x, rfl⟩
  case k_min => exact Post.bind_still (still_checkParameter _ _ _ _) h fun x => hp _ ⟨x, rfl⟩
  case k_max => exact Post.bind_still (still_checkParameter _ _ _ _) h fun x => hp _ ⟨x, rfl⟩

end Coffe
