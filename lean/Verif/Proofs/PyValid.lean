import Verif.Proofs.PyAssign
import Mathlib.Tactic.IntervalCases

/-! # Helper lemmas: allowed values are accepted -/

namespace Coffe
open Classical

/-- The method returns. -/
def Rets {α : Type} (m : Py α) (s : PyObj) : Prop := ∃ a s', m s = (.ok a, s')

theorem Rets.bind {α β : Type} {m : Py α} {f : α → Py β} {s : PyObj} {a : α} (h : m s = (.ok a, s))
    (h' : Rets (f a) s) : Rets (m >>= f) s := by
  obtain ⟨b, s', h'⟩ := h'
  exact ⟨b, s', (Py.bind_ok h).trans h'⟩

theorem rets_store (f : PyPar → PyPar) (free : PyObj → PyObj) (s : PyObj) : Rets (store f free) s :=
  ⟨(), _, rfl⟩

theorem Rets.store_bind {β : Type} {f : PyPar → PyPar} {free : PyObj → PyObj} {g : Unit → Py β} {s : PyObj}
    (h : Rets (g ()) (free (s.upd f))) : Rets (store f free >>= g) s := h

theorem Rets.get_bind {β : Type} {g : PyObj → Py β} {s : PyObj} (h : Rets (g s) s) :
    Rets (Py.get >>= g) s := h

theorem isReal_kind {v : PyVal} {x : ℝ} (h : v.IsReal x) : v.asKind .intFloat = some x := by
  rcases h with rfl | ⟨n, rfl, rfl⟩ | ⟨rfl, rfl⟩ | ⟨rfl, rfl⟩ <;> simp [PyVal.asKind]

theorem checkParameter_ok {v : PyVal} {k : Kind} {a b x : ℝ} {s : PyObj} (h : v.asKind k = some x)
    (ha : a ≤ x) (hb : x ≤ b) : checkParameter v k a b s = (.ok x, s) := by
  unfold checkParameter
  rw [h]
  dsimp only
  rw [if_neg (not_lt.2 ha), if_neg (not_lt.2 hb)]
  rfl

theorem checkInt_ok {v : PyVal} {a b n : ℤ} {s : PyObj} (h : v.IsInt n)
    (ha : a ≤ n) (hb : n ≤ b) : checkInt v a b s = (.ok n, s) := by
  unfold checkInt
  rcases h with rfl | ⟨rfl, rfl⟩ | ⟨rfl, rfl⟩ <;> dsimp only <;>
    simp only [if_true, Bool.false_eq_true, if_false, if_neg (not_lt.2 ha), if_neg (not_lt.2 hb), gt_iff_lt] <;> rfl

theorem toDouble_ok {v : PyVal} {x : ℝ} {s : PyObj} (h : v.IsReal x) : toDouble v s = (.ok x, s) := by
  rcases h with rfl | ⟨n, rfl, rfl⟩ | ⟨rfl, rfl⟩ | ⟨rfl, rfl⟩ <;> simp [toDouble, Py.pure_eq]

theorem toInt_ok {v : PyVal} {n : ℤ} {s : PyObj} (h : v.IsIntegral n) : toInt v s = (.ok n, s) := by
  rcases h with (rfl | ⟨rfl, rfl⟩ | ⟨rfl, rfl⟩) | rfl
  · rfl
  · rfl
  · rfl
  · unfold toInt
    dsimp only
    rw [truncInt_cast]
    rfl

theorem checkFloats_ok {v : PyVal} {l : List ℝ} {ok : ℝ → Prop} {s : PyObj} (h : v.IsReals l)
    (ho : ∀ x ∈ l, ok x) : checkFloats v ok s = (.ok l, s) := by
  unfold checkFloats
  rcases h with rfl | ⟨ns, rfl, rfl⟩
  · dsimp only
    rw [if_pos ho]; rfl
  · dsimp only
    rw [if_pos (fun n hn => ho _ (List.mem_map_of_mem hn))]; rfl

theorem rets_guarded {v : PyVal} {a b x : ℝ} {old : PyPar → ℝ} {act : ℝ → Py Unit} {s : PyObj}
    (h : v.IsReal x) (ha : a ≤ x) (hb : x ≤ b) (hact : Rets (act x) s) :
    Rets (guarded v .intFloat a b old act) s := by
  unfold guarded
  refine Rets.bind (checkParameter_ok (isReal_kind h) ha hb) (Rets.bind (Py.get_eq s) ?_)
  split_ifs
  · exact ⟨(), s, rfl⟩
  · exact hact

theorem checkDiscrete_ok {α : Type} {v : PyVal} {f : ℤ → Option α} {g : String → Option α} {s : PyObj}
    (h : (∃ n, v.IsIntegral n ∧ (f n).isSome) ∨ ∃ t, v = .str t ∧ (g t).isSome) :
    ∃ a, checkDiscrete v f g s = (.ok a, s) := by
  rcases h with ⟨n, (h | ⟨h, h'⟩ | ⟨h, h'⟩) | h, hf⟩ | ⟨t, h, hg⟩
  · obtain ⟨a, ha⟩ := Option.isSome_iff_exists.1 hf
    exact ⟨a, by rw [h]; unfold checkDiscrete; dsimp only; rw [ha]; rfl⟩
  · obtain ⟨a, ha⟩ := Option.isSome_iff_exists.1 hf
    subst h'
    exact ⟨a, by rw [h]; unfold checkDiscrete; simp only [if_true, ha]; rfl⟩
  · obtain ⟨a, ha⟩ := Option.isSome_iff_exists.1 hf
    subst h'
    exact ⟨a, by rw [h]; unfold checkDiscrete; simp only [Bool.false_eq_true, if_false, ha]; rfl⟩
  · obtain ⟨a, ha⟩ := Option.isSome_iff_exists.1 hf
    exact ⟨a, by rw [h]; unfold checkDiscrete; dsimp only; rw [truncInt_cast, if_pos rfl, ha]; rfl⟩
  · obtain ⟨a, ha⟩ := Option.isSome_iff_exists.1 hg
    exact ⟨a, by rw [h]; unfold checkDiscrete; dsimp only; rw [ha]; rfl⟩

theorem choice_ok {α : Type} {v : PyVal} {f : ℤ → Option α} {g : String → Option α} {s : PyObj}
    {first : ℕ} {names : List String} {old new : PyVal} (h : (Doc.choice first names).Accepted v old new)
    (hf : ∀ i : ℕ, i < names.length → (f (first + i : ℕ)).isSome) (hg : ∀ t ∈ names, (g t).isSome) :
    ∃ a, checkDiscrete v f g s = (.ok a, s) := by
  obtain ⟨i, name, hi, hv, -⟩ := h
  have hlt : i < names.length := by
    by_contra hc
    rw [List.getElem?_eq_none (not_lt.1 hc)] at hi
    cases hi
  refine checkDiscrete_ok ?_
  rcases hv with hv | hv
  · exact Or.inl ⟨_, hv, hf i hlt⟩
  · exact Or.inr ⟨name, hv, hg name (List.mem_of_getElem? hi)⟩

set_option maxHeartbeats 1000000 in
theorem setattr_valid {n : Name} {v : PyVal} {s : PyObj} {old new : PyVal} (h : n.doc.Accepted v old new)
    (h1 : n ≠ .integrals_fftlog_sampling) (h2 : n = .m_ncdm → s.par.h ≠ 0)
    (h3 : n ≠ .omega_cdm ∧ n ≠ .omega_m ∧ n ≠ .omega_baryon ∧ n ≠ .omega_gamma) :
    Rets (setattr n v) s := by
  cases n <;> unfold setattr <;> dsimp only
  case verbose | has_only_cross_correlations | covariance_cosmic | covariance_mixed | covariance_poisson |
      has_binned_covariance | has_density | has_rsd | has_lensing | has_d1 | has_d2 | has_g1 | has_g2 |
      has_g3 | has_g4 | has_g5 | has_flatsky_local | has_flatsky_local_nonlocal | has_flatsky_nonlocal =>
    all_goals exact rets_store _ _ _
  case omega_cdm => exact absurd rfl h3.1
  case omega_m => exact absurd rfl h3.2.1
  case omega_baryon => exact absurd rfl h3.2.2.1
  case omega_gamma => exact absurd rfl h3.2.2.2
  case integrals_fftlog_sampling => exact absurd rfl h1
  case h | w0 | wa | n_s | T_cmb | N_ur | YHe | sigma8 =>
    all_goals
      obtain ⟨x, hx, ha, hb, -⟩ := h
      exact rets_guarded hx ha hb (rets_store _ _ _)
  case m_ncdm =>
    obtain ⟨x, hx, ha, hb, -⟩ := h
    refine rets_guarded hx ha hb ?_
    have hh : ¬ (s.upd fun p => { p with m_ncdm := x }).par.h = 0 := h2 rfl
    refine Rets.store_bind (Rets.get_bind ?_)
    split_ifs with h0
    · exact absurd h0 hh
    · exact rets_store _ _ _
  case N_ncdm =>
    obtain ⟨x, hx, ha, hb, -⟩ := h
    refine Rets.bind (checkInt_ok hx ha hb) (Rets.bind (Py.get_eq s) ?_)
    split_ifs
    · exact ⟨(), s, rfl⟩
    · exact rets_store _ _ _
  case A_s | k_min | k_max =>
    all_goals
      obtain ⟨x, hx, ha, hb, -⟩ := h
      exact Rets.bind (checkParameter_ok (isReal_kind hx) ha hb) (rets_store _ _ _)
  case integration_1d_prec =>
    obtain ⟨x, rfl, ha, hb, -⟩ := h
    exact Rets.bind (checkParameter_ok (x := x) rfl ha hb) (rets_store _ _ _)
  case k_per_decade_for_bao | k_per_decade_for_pk | start_large_k_at_tau_h_over_tau_k |
      tol_perturb_integration | radiation_streaming_trigger_tau_over_tau_k |
      ur_fluid_trigger_tau_over_tau_k =>
    all_goals
      obtain ⟨x, hx, -⟩ := h
      exact Rets.bind (toDouble_ok hx) (rets_store _ _ _)
  case l_max_g | l_max_ur =>
    all_goals
      obtain ⟨x, hx, -⟩ := h
      exact Rets.bind (toInt_ok hx) (rets_store _ _ _)
  case sep | mu | z_mean | z_min | z_max | deltaz | number_density1 | number_density2 | pixelsize | fsky =>
    all_goals
      obtain ⟨x, hx, ho, -⟩ := h
      exact Rets.bind (checkFloats_ok hx ho) (rets_store _ _ _)
  case covariance_integration_sampling | integration_sampling | background_sampling =>
    all_goals
      obtain ⟨x, hx, ha, hb, -⟩ := h
      exact Rets.bind (checkInt_ok hx ha hb) (rets_store _ _ _)
  case l =>
    obtain ⟨l, rfl | ⟨rfl, rfl⟩, ho, -⟩ := h
    · refine Rets.bind (a := l.map Int.toNat) ?_ (rets_store _ _ _)
      unfold checkMultipoles
      dsimp only
      rw [if_pos ho]; rfl
    · exact Rets.bind (a := []) rfl (rets_store _ _ _)
  case covariance_populations =>
    obtain ⟨l, hv, hl, ho, -⟩ := h
    match l, hl with
    | [a, b, c, d], _ =>
      refine Rets.bind (a := (a, b, c, d)) ?_ (rets_store _ _ _)
      rcases hv with rfl | rfl
      · unfold checkPopulations
        dsimp only
        rw [if_pos (fun n hn => by have := ho n hn; omega)]; rfl
      · unfold checkPopulations
        dsimp only [List.map]
        rw [if_pos, truncInt_cast, truncInt_cast, truncInt_cast, truncInt_cast]
        · rfl
        · intro x hx
          have : ∃ n : ℤ, x = n ∧ 1 ≤ n ∧ n ≤ 4 := by
            simp only [List.mem_cons, List.not_mem_nil, or_false] at hx
            rcases hx with rfl | rfl | rfl | rfl
            exacts [⟨a, rfl, ho a (by simp)⟩, ⟨b, rfl, ho b (by simp)⟩, ⟨c, rfl, ho c (by simp)⟩,
              ⟨d, rfl, ho d (by simp)⟩]
          obtain ⟨n, rfl, h1, h2⟩ := this
          interval_cases n <;> norm_num
  case pk_type =>
    obtain ⟨a, ha⟩ := choice_ok (f := pkOfInt) (g := pkOfStr) (s := s) h
      (fun i hi => by simp only [List.length] at hi; interval_cases i <;> rfl)
      (fun t ht => by
        simp only [List.mem_cons, List.not_mem_nil, or_false] at ht
        rcases ht with rfl | rfl | rfl | rfl <;> decide)
    exact Rets.bind ha (rets_store _ _ _)
  case integration_1d_type =>
    obtain ⟨a, ha⟩ := choice_ok (f := int1dOfInt) (g := int1dOfStr) (s := s) h
      (fun i hi => by simp only [List.length] at hi; interval_cases i <;> rfl)
      (fun t ht => by
        simp only [List.mem_cons, List.not_mem_nil, or_false] at ht
        rcases ht with rfl | rfl <;> decide)
    exact Rets.bind ha (rets_store _ _ _)
  case covariance_integration_method =>
    obtain ⟨a, ha⟩ := choice_ok (f := covMethodOfInt) (g := covMethodOfStr) (s := s) h
      (fun i hi => by simp only [List.length] at hi; interval_cases i <;> rfl)
      (fun t ht => by
        simp only [List.mem_cons, List.not_mem_nil, or_false] at ht
        rcases ht with rfl | rfl <;> decide)
    exact Rets.bind ha (rets_store _ _ _)
  case covariance_interpolation_method =>
    obtain ⟨a, ha⟩ := choice_ok (f := interp2dOfInt) (g := interp2dOfStr) (s := s) h
      (fun i hi => by simp only [List.length] at hi; interval_cases i <;> rfl)
      (fun t ht => by
        simp only [List.mem_cons, List.not_mem_nil, or_false] at ht
        rcases ht with rfl | rfl <;> decide)
    exact Rets.bind ha (rets_store _ _ _)

end Coffe
