import Verif.Proofs.PyEnds

/-! # Helper lemmas: what an assignment does -/

namespace Coffe
open Classical

/-- How a rejected assignment may leave the object: unchanged, except that `m_ncdm` is already stored when
the division by `h == 0` raises. -/
def Rejected (n : Name) (s : PyObj) (e : Err) (s' : PyObj) : Prop :=
  s' = s ∨ (n = .m_ncdm ∧ s.par.h = 0 ∧ e = .zeroDivision ∧
    ∃ x, s' = s.upd fun p => { p with m_ncdm := x })

theorem pkOfInt_doc {n : ℤ} {a : PkType} (h : pkOfInt n = some a) :
    ∃ i : ℕ, n = (0 + i : ℕ) ∧ ["linear", "linear_class", "halofit", "hmcode"][i]? = some (pkName a) := by
  unfold pkOfInt at h
  split at h <;> simp only [Option.some.injEq, reduceCtorEq] at h <;> subst h
  · exact ⟨0, rfl, rfl⟩
  · exact ⟨1, rfl, rfl⟩
  · exact ⟨2, rfl, rfl⟩
  · exact ⟨3, rfl, rfl⟩

theorem pkOfStr_doc {t : String} {a : PkType} (h : pkOfStr t = some a) : t = pkName a := by
  have := List.find?_some h
  exact (of_decide_eq_true this).symm

theorem pkName_doc (a : PkType) :
    ∃ i : ℕ, ["linear", "linear_class", "halofit", "hmcode"][i]? = some (pkName a) := by
  cases a
  · exact ⟨0, rfl⟩
  · exact ⟨1, rfl⟩
  · exact ⟨2, rfl⟩
  · exact ⟨3, rfl⟩

theorem choice_accepted {α : Type} {v old : PyVal} {a : α} {f : ℤ → Option α} {g : String → Option α}
    {name : α → String} {first : ℕ} {names : List String}
    (hf : ∀ n a, f n = some a → ∃ i : ℕ, n = (first + i : ℕ) ∧ names[i]? = some (name a))
    (hg : ∀ t a, g t = some a → t = name a) (hn : ∀ a, ∃ i : ℕ, names[i]? = some (name a))
    (h : (∃ n, v.IsIntegral n ∧ f n = some a) ∨ ∃ t, v = .str t ∧ g t = some a) :
    (Doc.choice first names).Accepted v old (.str (name a)) := by
  rcases h with ⟨n, h1, h2⟩ | ⟨t, h1, h2⟩
  · obtain ⟨i, rfl, hi⟩ := hf n a h2
    exact ⟨i, _, hi, Or.inl h1, rfl⟩
  · obtain ⟨i, hi⟩ := hn a
    exact ⟨i, _, hi, Or.inr (by rw [h1, hg t a h2]), rfl⟩

theorem int1dOfInt_doc {n : ℤ} {a : Int1d} (h : int1dOfInt n = some a) :
    ∃ i : ℕ, n = (1 + i : ℕ) ∧ ["gsl", "exponential"][i]? = some (int1dName a) := by
  unfold int1dOfInt at h
  split at h <;> simp only [Option.some.injEq, reduceCtorEq] at h <;> subst h
  · exact ⟨0, rfl, rfl⟩
  · exact ⟨1, rfl, rfl⟩

theorem covMethodOfInt_doc {n : ℤ} {a : CovMethod} (h : covMethodOfInt n = some a) :
    ∃ i : ℕ, n = (1 + i : ℕ) ∧ ["standard", "fftlog"][i]? = some (covMethodName a) := by
  unfold covMethodOfInt at h
  split at h <;> simp only [Option.some.injEq, reduceCtorEq] at h <;> subst h
  · exact ⟨0, rfl, rfl⟩
  · exact ⟨1, rfl, rfl⟩

theorem interp2dOfInt_doc {n : ℤ} {a : Interp2d} (h : interp2dOfInt n = some a) :
    ∃ i : ℕ, n = (1 + i : ℕ) ∧ ["bilinear", "bicubic"][i]? = some (interp2dName a) := by
  unfold interp2dOfInt at h
  split at h <;> simp only [Option.some.injEq, reduceCtorEq] at h <;> subst h
  · exact ⟨0, rfl, rfl⟩
  · exact ⟨1, rfl, rfl⟩

theorem int1dOfStr_doc {t : String} {a : Int1d} (h : int1dOfStr t = some a) : t = int1dName a := by
  have := List.find?_some h
  exact (of_decide_eq_true this).symm

theorem covMethodOfStr_doc {t : String} {a : CovMethod} (h : covMethodOfStr t = some a) : t = covMethodName a := by
  have := List.find?_some h
  exact (of_decide_eq_true this).symm

theorem interp2dOfStr_doc {t : String} {a : Interp2d} (h : interp2dOfStr t = some a) : t = interp2dName a := by
  have := List.find?_some h
  exact (of_decide_eq_true this).symm

theorem ends_guarded {n : Name} {v : PyVal} {a b : ℝ} {old : PyPar → ℝ} {act : ℝ → Py Unit} {s : PyObj}
    (hd : n.doc = .cosmology a b) (ho : getattr s.par n = .float (old s.par))
    (h1 : ∀ x, Ends (act x) s (fun _ s' => getattr s'.par n = .float x) (Rejected n s)) :
    Ends (guarded v .intFloat a b old act) s
      (fun _ s' => n.doc.Accepted v (getattr s.par n) (getattr s'.par n)) (Rejected n s) := by
  refine guarded_ends (fun e => Or.inl rfl) ?_ ?_
  · intro x hx ha hb hc
    rw [hd]
    exact ⟨x, hx, ha, hb, Or.inr ⟨rfl, _, ho, hc⟩⟩
  · intro x hx ha hb _
    refine (h1 x).mono (fun _ s' h => ?_) fun _ _ h => h
    rw [hd]
    exact ⟨x, hx, ha, hb, Or.inl h⟩

theorem ends_get {n : Name} {s : PyObj} {T : Unit → PyObj → Prop} {f : PyObj → Py Unit}
    (h : Ends (f s) s T (Rejected n s)) : Ends (Py.get >>= f) s T (Rejected n s) :=
  Ends.check (S := fun s' => s' = s) (m := Py.get) ⟨rfl, rfl⟩ (fun _ => Or.inl rfl) fun s' hs' => by
    subst hs'; exact h

theorem ends_omegas {n : Name} {s : PyObj} {T : Unit → PyObj → Prop} {f : Unit → Py Unit} {x : ℝ}
    (h : Ends (f ()) s T (Rejected n s)) : Ends (checkOmegas x >>= f) s T (Rejected n s) :=
  Ends.check (checkOmegas_ends _ _) (fun _ => Or.inl rfl) fun _ _ => h

theorem ends_prec {n : Name} {v : PyVal} {s : PyObj} {f : ClassPrec → ℝ → ClassPrec}
    (hd : n.doc = .anyReal)
    (h : ∀ x, getattr (PyObj.freeAll (s.upd fun p => { p with prec := f p.prec x })).par n = .float x) :
    Ends (setPrec v f) s
      (fun _ s' => n.doc.Accepted v (getattr s.par n) (getattr s'.par n)) (Rejected n s) := by
  unfold setPrec
  refine Ends.check (toDouble_ends v s) (fun _ => Or.inl rfl) fun x hx => ?_
  rw [hd]
  exact ⟨x, hx, h x⟩

theorem ends_floats {n : Name} {v : PyVal} {s : PyObj} {ok : ℝ → Prop} {f : List ℝ → PyPar → PyPar}
    {free : PyObj → PyObj} (hd : n.doc = .reals ok)
    (h : ∀ x, getattr (free (s.upd (f x))).par n = .floats x) :
    Ends (do let x ← checkFloats v ok; store (f x) free) s
      (fun _ s' => n.doc.Accepted v (getattr s.par n) (getattr s'.par n)) (Rejected n s) := by
  refine Ends.check (checkFloats_ends v ok s) (fun _ => Or.inl rfl) fun x ⟨hx, hx'⟩ => ?_
  rw [hd]
  exact ⟨x, hx, hx', h x⟩

theorem ends_int {n : Name} {v : PyVal} {s : PyObj} {a b : ℤ} {f : ℤ → PyPar → PyPar}
    {free : PyObj → PyObj} (hd : n.doc = .int a b)
    (h : ∀ x, getattr (free (s.upd (f x))).par n = .int x) :
    Ends (do let x ← checkInt v a b; store (f x) free) s
      (fun _ s' => n.doc.Accepted v (getattr s.par n) (getattr s'.par n)) (Rejected n s) := by
  refine Ends.check (checkInt_ends v a b s) (fun _ => Or.inl rfl) fun x ⟨hx, ha, hb⟩ => ?_
  rw [hd]
  exact ⟨x, hx, ha, hb, h x⟩

theorem ends_anyInt {n : Name} {v : PyVal} {s : PyObj} {f : ℤ → PyPar → PyPar}
    {free : PyObj → PyObj} (hd : n.doc = .anyInt)
    (hv : ∀ x, v = .float x → ∃ k : ℤ, x = k)
    (h : ∀ x, getattr (free (s.upd (f x))).par n = .int x) :
    Ends (do let x ← toInt v; store (f x) free) s
      (fun _ s' => n.doc.Accepted v (getattr s.par n) (getattr s'.par n)) (Rejected n s) := by
  refine Ends.check (toInt_ends v s hv) (fun _ => Or.inl rfl) fun x hx => ?_
  rw [hd]
  exact ⟨x, hx, h x⟩

theorem ends_real {n : Name} {v : PyVal} {s : PyObj} {a b : ℝ} {f : ℝ → PyPar → PyPar}
    {free : PyObj → PyObj} (hd : n.doc = .real a b)
    (h : ∀ x, getattr (free (s.upd (f x))).par n = .float x) :
    Ends (do let x ← checkParameter v .intFloat a b; store (f x) free) s
      (fun _ s' => n.doc.Accepted v (getattr s.par n) (getattr s'.par n)) (Rejected n s) := by
  refine Ends.check (checkParameter_ends v _ a b s) (fun _ => Or.inl rfl) fun x ⟨hx, ha, hb⟩ => ?_
  rw [hd]
  exact ⟨x, asKind_intFloat hx, ha, hb, h x⟩

/-- Every assignment: accepted values are readable, rejected ones change nothing. -/
theorem setattr_ends (n : Name) (v : PyVal) (s : PyObj) (hw : n.Whole v) :
    Ends (setattr n v) s (fun _ s' => n.doc.Accepted v (getattr s.par n) (getattr s'.par n))
      (Rejected n s) := by
  cases n <;> unfold setattr <;> dsimp only
  case verbose | has_only_cross_correlations | covariance_cosmic | covariance_mixed | covariance_poisson |
      has_binned_covariance | has_density | has_rsd | has_lensing | has_d1 | has_d2 | has_g1 | has_g2 |
      has_g3 | has_g4 | has_g5 | has_flatsky_local | has_flatsky_local_nonlocal | has_flatsky_nonlocal =>
    all_goals exact rfl
  case omega_cdm | omega_m | omega_baryon | omega_gamma =>
    all_goals exact ends_guarded rfl rfl fun x => ends_get (ends_omegas rfl)
  case h | w0 | wa | n_s | T_cmb | N_ur | YHe | sigma8 =>
    all_goals exact ends_guarded rfl rfl fun x => rfl
  case m_ncdm =>
    refine ends_guarded rfl rfl fun x => ?_
    refine Ends.bind (S := fun _ s' => s' = s.upd fun p => { p with m_ncdm := x }) rfl fun _ s' hs' => ?_
    refine Ends.bind (S := fun r s'' => r = s' ∧ s'' = s') (m := Py.get) ⟨rfl, rfl⟩ ?_
    rintro r s'' ⟨rfl, rfl⟩
    subst hs'
    split_ifs with h
    · exact Or.inr ⟨rfl, h, rfl, x, rfl⟩
    · rfl
  case N_ncdm =>
    refine Ends.check (checkInt_ends _ _ _ s) (fun _ => Or.inl rfl) fun x ⟨hx, ha, hb⟩ => ends_get ?_
    split_ifs with h
    · exact ⟨x, hx, ha, hb, Or.inr ⟨rfl, _, rfl, h⟩⟩
    · exact ⟨x, hx, ha, hb, Or.inl rfl⟩
  case A_s | k_min | k_max => all_goals exact ends_real rfl fun x => rfl
  case integration_1d_prec =>
    refine Ends.check (checkParameter_ends v _ _ _ s) (fun _ => Or.inl rfl) fun x ⟨hx, ha, hb⟩ => ?_
    exact ⟨x, asKind_float hx, ha, hb, rfl⟩
  case k_per_decade_for_bao | k_per_decade_for_pk | start_large_k_at_tau_h_over_tau_k |
      tol_perturb_integration | radiation_streaming_trigger_tau_over_tau_k |
      ur_fluid_trigger_tau_over_tau_k =>
    all_goals exact ends_prec rfl fun x => rfl
  case l_max_g => exact ends_anyInt rfl (hw (Or.inl rfl)) fun x => rfl
  case l_max_ur => exact ends_anyInt rfl (hw (Or.inr rfl)) fun x => rfl
  case sep | mu | z_mean | z_min | z_max | deltaz | number_density1 | number_density2 | pixelsize | fsky =>
    all_goals exact ends_floats rfl fun x => rfl
  case integrals_fftlog_sampling =>
    exact Ends.check (checkInt_ends _ _ _ s) (fun _ => Or.inl rfl) fun _ _ => Or.inl rfl
  case covariance_integration_sampling | integration_sampling | background_sampling =>
    all_goals exact ends_int rfl fun x => rfl
  case l =>
    refine Ends.check (checkMultipoles_ends v s) (fun _ => Or.inl rfl) fun x ⟨ns, h1, h2, h3⟩ => ?_
    exact ⟨ns, h1, h2, congrArg PyVal.ints h3⟩
  case covariance_populations =>
    refine Ends.check (checkPopulations_ends v s) (fun _ => Or.inl rfl) fun x ⟨h1, h2⟩ => ?_
    exact ⟨_, h1, rfl, h2, rfl⟩
  case pk_type =>
    refine Ends.check (checkDiscrete_ends v _ _ s) (fun _ => Or.inl rfl) fun a h => ?_
    exact choice_accepted (old := .other) (fun _ _ => pkOfInt_doc) (fun _ _ => pkOfStr_doc) pkName_doc h
  case integration_1d_type =>
    refine Ends.check (checkDiscrete_ends v _ _ s) (fun _ => Or.inl rfl) fun a h => ?_
    exact choice_accepted (old := .other) (fun _ _ => int1dOfInt_doc)
      (fun _ _ => int1dOfStr_doc)
      (fun a => by cases a; exacts [⟨0, rfl⟩, ⟨1, rfl⟩]) h
  case covariance_integration_method =>
    refine Ends.check (checkDiscrete_ends v _ _ s) (fun _ => Or.inl rfl) fun a h => ?_
    exact choice_accepted (old := .other) (fun _ _ => covMethodOfInt_doc)
      (fun _ _ => covMethodOfStr_doc)
      (fun a => by cases a; exacts [⟨0, rfl⟩, ⟨1, rfl⟩]) h
  case covariance_interpolation_method =>
    refine Ends.check (checkDiscrete_ends v _ _ s) (fun _ => Or.inl rfl) fun a h => ?_
    exact choice_accepted (old := .other) (fun _ _ => interp2dOfInt_doc)
      (fun _ _ => interp2dOfStr_doc)
      (fun a => by cases a; exacts [⟨0, rfl⟩, ⟨1, rfl⟩]) h

end Coffe
