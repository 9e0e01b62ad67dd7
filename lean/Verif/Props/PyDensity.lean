import Verif.Proofs.PyDensity
import Verif.Proofs.PyValid
import Verif.Spec.WitnessPy
import Mathlib.Tactic.Linarith
import Mathlib.Tactic.FieldSimp

/-!
# Properties of the density parameters over histories (C03, C04)
-/

namespace Coffe
open Classical

/-- C03, first half: whatever is called, in whatever order, dark energy always closes the budget. -/
theorem C03_dark_energy_closes (N : Num) (ops : List Op) (s : PyObj)
    (hs : run N ops (fresh PyPar.default) = some s) : s.dens.Flat := by
  refine run_inv (Inv := Dens.Flat) (ok := fun _ _ _ => True) ?_ N ops _ s ?_ ?_ hs
  · intro s n v d' h _ hd
    unfold DensStep at hd
    split at hd
    · obtain ⟨x, -, -, rfl⟩ := hd; rfl
    · obtain ⟨x, -, -, rfl⟩ := hd; rfl
    · obtain ⟨x, -, -, rfl⟩ := hd; rfl
    · obtain ⟨x, -, -, rfl⟩ := hd; rfl
    · obtain ⟨x, -, -, rfl⟩ := hd; rfl
    · obtain ⟨x, -, ⟨-, rfl⟩ | ⟨-, rfl⟩⟩ := hd
      · exact h
      · rfl
    · exact hd.elim
  · show (1 - (0.3 + 9e-5) : ℝ) = 1 - 0.3 - 9e-5
    norm_num
  · clear hs
    generalize fresh PyPar.default = t
    induction ops generalizing t with
    | nil => trivial
    | cons op ops ih =>
      refine ⟨?_, ih _⟩
      unfold OkOp
      split
      · trivial
      · rename_i kvs
        clear ih
        induction kvs generalizing t with
        | nil => trivial
        | cons kv kvs ih =>
          obtain ⟨a, v⟩ := kv
          cases a
          · exact ⟨trivial, ih _⟩
          · trivial
          · trivial
      · trivial

/-- C03, second half: as long as `omega_cdm` is assigned only without neutrinos, `h` only while the
neutrino mass is zero and the neutrino mass only while `h != 0`, the matter density is the sum of its parts
and the neutrino density is that of the neutrino mass. -/
theorem C03_matter_closes_partial (N : Num) (ops : List Op) (s : PyObj)
    (ok : OkRun N consistentSet ops (fresh PyPar.default))
    (hs : run N ops (fresh PyPar.default) = some s) :
    s.dens.Flat ∧ s.dens.Matter ∧ s.dens.Neutrinos := by
  refine ⟨C03_dark_energy_closes N ops s hs, ?_⟩
  refine run_inv (Inv := fun d => d.Matter ∧ d.Neutrinos) (ok := consistentSet) ?_ N ops _ s ?_ ok hs
  · rintro s n v d' ⟨h1, h2⟩ hok hd
    unfold DensStep at hd
    unfold consistentSet at hok
    unfold Dens.Matter at *
    split at hd
    · obtain ⟨x, -, -, rfl⟩ := hd
      have hnu : s.dens.nu = 0 := hok
      refine ⟨?_, h2⟩
      show x + s.dens.baryon = x + s.dens.baryon + s.dens.nu
      rw [hnu, add_zero]
    · obtain ⟨x, -, -, rfl⟩ := hd
      refine ⟨?_, h2⟩
      show x = x - s.dens.baryon - s.dens.nu + s.dens.baryon + s.dens.nu
      ring
    · obtain ⟨x, -, -, rfl⟩ := hd
      refine ⟨?_, h2⟩
      show s.dens.m = s.dens.m - x - s.dens.nu + x + s.dens.nu
      ring
    · obtain ⟨x, -, -, rfl⟩ := hd
      exact ⟨h1, h2⟩
    · obtain ⟨x, -, -, rfl⟩ := hd
      have hm : s.dens.m_ncdm = 0 := hok
      refine ⟨h1, Or.inl ⟨hm, ?_⟩⟩
      show s.dens.nu = 0
      rcases h2 with ⟨-, h2⟩ | ⟨-, h2⟩
      · exact h2
      · rw [h2, hm]; simp
    · obtain ⟨x, -, ⟨h0, -⟩ | ⟨h0, rfl⟩⟩ := hd
      · exact absurd h0 hok
      · constructor
        · show s.dens.m = s.dens.m - s.dens.baryon - x / 93.14 / s.dens.h / s.dens.h + s.dens.baryon +
            x / 93.14 / s.dens.h / s.dens.h
          ring
        · right
          refine ⟨h0, ?_⟩
          show x / 93.14 / s.dens.h / s.dens.h = x / 93.14 / s.dens.h ^ 2
          field_simp
    · exact hd.elim
  · constructor
    · show (0.3 : ℝ) = 0.3 - 0.05 - 0 + 0.05 + 0
      norm_num
    · exact Or.inl ⟨rfl, rfl⟩

/-! ### Helpers for the concrete histories -/

theorem guarded_run {v : PyVal} {a b x : ℝ} {old : PyPar → ℝ} {act : ℝ → Py Unit} {s : PyObj}
    (h : v.IsReal x) (ha : a ≤ x) (hb : x ≤ b) (hne : ¬ allclose x (old s.par)) :
    guarded v .intFloat a b old act s = act x s := by
  unfold guarded
  refine (Py.bind_ok (checkParameter_ok (isReal_kind h) ha hb)).trans ?_
  refine (Py.bind_ok (Py.get_eq _)).trans ?_
  exact congrFun (if_neg hne) _

theorem omegas_run {x : ℝ} {f : Unit → Py Unit} {s : PyObj} (h : x ≤ 1) :
    (checkOmegas x >>= f) s = f () s := by
  unfold checkOmegas
  rw [if_neg (not_lt.2 h)]
  rfl

theorem run_setattr {N : Num} {n : Name} {v : PyVal} {s s' : PyObj} {ops : List Op}
    (h : setattr n v s = (.ok (), s')) :
    run N (.setattr (.settable n) v :: ops) s = run N ops s' := by
  have : exec N (.setattr (.settable n) v) s = (.ok .unit, s') := Py.bind_ok h
  rw [run, this]

theorem set_m_ncdm (s : PyObj) (x : ℝ) (hx : -100 ≤ x ∧ x ≤ 100) (h0 : s.par.h ≠ 0)
    (hne : ¬ allclose x s.par.m_ncdm) :
    ∃ s', setattr .m_ncdm (.float x) s = (.ok (), s') ∧ s'.dens = { s.dens with
      m_ncdm := x, nu := x / 93.14 / s.dens.h / s.dens.h
      cdm := s.dens.m - s.dens.baryon - x / 93.14 / s.dens.h / s.dens.h, de := 1 - s.dens.m - s.dens.gamma } := by
  unfold setattr
  refine ⟨_, (guarded_run (Or.inl rfl) hx.1 hx.2 hne).trans
    ((Py.bind_ok (s' := s.upd fun p => { p with m_ncdm := x }) (Py.modify_eq _ s)).trans
    ((Py.bind_ok (Py.get_eq _)).trans ((congrFun (if_neg ?_) _).trans (Py.modify_eq _ _)))), ?_⟩
  · exact h0
  · rfl

theorem set_omega_cdm (s : PyObj) (x : ℝ) (hx : -100 ≤ x ∧ x ≤ 100) (hne : ¬ allclose x s.par.Omega0_cdm)
    (hs : x + s.dens.baryon + s.dens.gamma + s.dens.nu ≤ 1) :
    ∃ s', setattr .omega_cdm (.float x) s = (.ok (), s') ∧ s'.dens = { s.dens with
      cdm := x, m := x + s.dens.baryon, de := 1 - (x + s.dens.baryon) - s.dens.gamma } := by
  unfold setattr
  exact ⟨_, (guarded_run (Or.inl rfl) hx.1 hx.2 hne).trans ((Py.bind_ok (Py.get_eq _)).trans
    ((omegas_run hs).trans (Py.modify_eq _ _))), rfl⟩

theorem set_omega_baryon (s : PyObj) (x : ℝ) (hx : -100 ≤ x ∧ x ≤ 100)
    (hne : ¬ allclose x s.par.Omega0_baryon) (hs : x + s.dens.cdm + s.dens.gamma ≤ 1) :
    ∃ s', setattr .omega_baryon (.float x) s = (.ok (), s') ∧ s'.dens = { s.dens with
      baryon := x, cdm := s.dens.m - x - s.dens.nu, de := 1 - s.dens.m - s.dens.gamma } := by
  unfold setattr
  exact ⟨_, (guarded_run (Or.inl rfl) hx.1 hx.2 hne).trans ((Py.bind_ok (Py.get_eq _)).trans
    ((omegas_run hs).trans (Py.modify_eq _ _))), rfl⟩

theorem set_omega_gamma (s : PyObj) (x : ℝ) (hx : -100 ≤ x ∧ x ≤ 100)
    (hne : ¬ allclose x s.par.Omega0_gamma) (hs : x + s.dens.m ≤ 1) :
    ∃ s', setattr .omega_gamma (.float x) s = (.ok (), s') ∧ s'.dens = { s.dens with
      gamma := x, de := 1 - s.dens.m - x } := by
  unfold setattr
  exact ⟨_, (guarded_run (Or.inl rfl) hx.1 hx.2 hne).trans ((Py.bind_ok (Py.get_eq _)).trans
    ((omegas_run hs).trans (Py.modify_eq _ _))), rfl⟩

theorem set_h (s : PyObj) (x : ℝ) (hx : 0 ≤ x ∧ x ≤ 100) (hne : ¬ allclose x s.par.h) :
    ∃ s', setattr .h (.float x) s = (.ok (), s') ∧ s'.dens = { s.dens with
      h := x, de := 1 - s.dens.m - s.dens.gamma } := by
  unfold setattr
  exact ⟨_, (guarded_run (Or.inl rfl) hx.1 hx.2 hne).trans (Py.modify_eq _ _), rfl⟩

/-- The densities of a new object. -/
theorem default_dens : (fresh PyPar.default).dens =
    ⟨0.3 - 0.05 - 0, 0.05, 9e-5, 0, 0.3, 1 - (0.3 + 9e-5), 0.67, 0⟩ := rfl

/-- A history meeting the hypotheses of `C03_matter_closes_partial`: `h = 0.7`, `m_ncdm = 0.06`,
`omega_m = 0.32` starting from the default. -/
example : OkRun wNum consistentSet [.setattr (.settable .h) (.float 0.7), .setattr (.settable .m_ncdm) (.float 0.06),
    .setattr (.settable .omega_m) (.float 0.32)] (fresh PyPar.default) := by
  refine ⟨rfl, ?_, trivial, trivial⟩
  obtain ⟨s', h1, h2⟩ := set_h (fresh PyPar.default) 0.7 (by norm_num) (by
    show ¬ allclose 0.7 (0.67 : ℝ)
    unfold allclose; norm_num [abs_of_pos])
  have : exec wNum (.setattr (.settable .h) (.float 0.7)) (fresh PyPar.default) = (.ok .unit, s') := Py.bind_ok h1
  rw [this]
  show s'.dens.h ≠ 0
  rw [h2]
  norm_num

/-- C03 fails in general: assigning `omega_cdm` while there are neutrinos drops them from `omega_m`. -/
theorem C03_omega_cdm_false :
    ¬ ∀ (N : Num) (ops : List Op) (s : PyObj), run N ops (fresh PyPar.default) = some s → s.dens.Matter := by
  intro H
  obtain ⟨s1, h1, e1⟩ := set_m_ncdm (fresh PyPar.default) 1 (by norm_num)
    (by show (0.67 : ℝ) ≠ 0; norm_num) (by show ¬ allclose 1 (0 : ℝ); unfold allclose; norm_num)
  rw [default_dens] at e1
  have hc : s1.par.Omega0_cdm = 0.3 - 0.05 - 1 / 93.14 / 0.67 / 0.67 := congrArg Dens.cdm e1
  obtain ⟨s2, h2, e2⟩ := set_omega_cdm s1 0.1 (by norm_num)
    (by rw [hc]; unfold allclose; norm_num [abs_of_neg, abs_of_pos])
    (by rw [e1]; norm_num)
  rw [e1] at e2
  have h := H wNum [.setattr (.settable .m_ncdm) (.float 1), .setattr (.settable .omega_cdm) (.float 0.1)] s2
    (by rw [run_setattr h1, run_setattr h2]; rfl)
  unfold Dens.Matter at h
  rw [e2] at h
  norm_num at h

/-- C03 fails in general: changing `h` leaves the old neutrino density. -/
theorem C03_h_false :
    ¬ ∀ (N : Num) (ops : List Op) (s : PyObj), run N ops (fresh PyPar.default) = some s → s.dens.Neutrinos := by
  intro H
  obtain ⟨s1, h1, e1⟩ := set_m_ncdm (fresh PyPar.default) 1 (by norm_num)
    (by show (0.67 : ℝ) ≠ 0; norm_num) (by show ¬ allclose 1 (0 : ℝ); unfold allclose; norm_num)
  rw [default_dens] at e1
  have hc : s1.par.h = 0.67 := congrArg Dens.h e1
  obtain ⟨s2, h2, e2⟩ := set_h s1 0.7 (by norm_num)
    (by rw [hc]; unfold allclose; norm_num [abs_of_pos])
  rw [e1] at e2
  have h := H wNum [.setattr (.settable .m_ncdm) (.float 1), .setattr (.settable .h) (.float 0.7)] s2
    (by rw [run_setattr h1, run_setattr h2]; rfl)
  unfold Dens.Neutrinos at h
  rw [e2] at h
  norm_num at h

/-! ## Physical range -/

/-- All densities lie in [0, 1]. -/
def Dens.Physical (d : Dens) : Prop :=
  (0 ≤ d.cdm ∧ d.cdm ≤ 1) ∧ (0 ≤ d.baryon ∧ d.baryon ≤ 1) ∧ (0 ≤ d.gamma ∧ d.gamma ≤ 1) ∧
  (0 ≤ d.m ∧ d.m ≤ 1) ∧ (0 ≤ d.de ∧ d.de ≤ 1)

/-- C04: if the densities and neutrino masses assigned by the user are not negative, then the matter,
radiation and dark-energy densities stay in [0, 1], and the baryon density stays non-negative.  Missing:
`omega_cdm >= 0` and `omega_baryon <= 1`, which fail. -/
theorem C04_physical_partial (N : Num) (ops : List Op) (s : PyObj)
    (ok : OkRun N nonnegativeSet ops (fresh PyPar.default))
    (hs : run N ops (fresh PyPar.default) = some s) :
    (0 ≤ s.dens.m ∧ s.dens.m ≤ 1) ∧ (0 ≤ s.dens.gamma ∧ s.dens.gamma ≤ 1) ∧
    (0 ≤ s.dens.de ∧ s.dens.de ≤ 1) ∧ 0 ≤ s.dens.baryon ∧ 0 ≤ s.dens.nu := by
  have key : 0 ≤ s.dens.m ∧ 0 ≤ s.dens.gamma ∧ s.dens.m + s.dens.gamma ≤ 1 ∧ 0 ≤ s.dens.baryon ∧
      0 ≤ s.dens.nu ∧ 0 ≤ s.dens.h := by
    refine run_inv (Inv := fun d => 0 ≤ d.m ∧ 0 ≤ d.gamma ∧ d.m + d.gamma ≤ 1 ∧ 0 ≤ d.baryon ∧ 0 ≤ d.nu ∧
      0 ≤ d.h) (ok := nonnegativeSet) ?_ N ops _ s ?_ ok hs
    · rintro s n v d' ⟨h1, h2, h3, h4, h5, h6⟩ hok hd
      have hpos : ∀ x, v.IsReal x → (∀ y, (v = .float y ∨ ∃ k : ℤ, v = .int k ∧ y = k) → 0 ≤ y) → 0 ≤ x := by
        intro x hx hv
        rcases hx with hx | hx | ⟨-, rfl⟩ | ⟨-, rfl⟩
        · exact hv x (Or.inl hx)
        · exact hv x (Or.inr hx)
        · norm_num
        · exact le_rfl
      unfold DensStep at hd
      unfold nonnegativeSet at hok
      split at hd
      · obtain ⟨x, hx, h, rfl⟩ := hd
        have := hpos x hx hok
        exact ⟨add_nonneg this h4, h2, by dsimp only; linarith, h4, h5, h6⟩
      · obtain ⟨x, hx, h, rfl⟩ := hd
        have := hpos x hx hok
        exact ⟨this, h2, h, h4, h5, h6⟩
      · obtain ⟨x, hx, h, rfl⟩ := hd
        have := hpos x hx hok
        exact ⟨h1, h2, h3, this, h5, h6⟩
      · obtain ⟨x, hx, h, rfl⟩ := hd
        have := hpos x hx hok
        exact ⟨h1, this, by dsimp only; linarith, h4, h5, h6⟩
      · obtain ⟨x, hx, h, rfl⟩ := hd
        exact ⟨h1, h2, h3, h4, h5, h⟩
      · obtain ⟨x, hx, ⟨-, rfl⟩ | ⟨-, rfl⟩⟩ := hd
        · exact ⟨h1, h2, h3, h4, h5, h6⟩
        · have := hpos x hx hok
          exact ⟨h1, h2, h3, h4, by dsimp only; positivity, h6⟩
      · exact hd.elim
    · rw [default_dens]; norm_num
  have hf := C03_dark_energy_closes N ops s hs
  unfold Dens.Flat at hf
  obtain ⟨h1, h2, h3, h4, h5, h6⟩ := key
  refine ⟨⟨h1, ?_⟩, ⟨h2, ?_⟩, ⟨?_, ?_⟩, h4, h5⟩ <;> linarith

/-- A history meeting the hypotheses of `C04_physical_partial`. -/
example : OkRun wNum nonnegativeSet [.setattr (.settable .omega_m) (.float 0.5),
    .setattr (.settable .m_ncdm) (.float 0.06)] (fresh PyPar.default) := by
  refine ⟨?_, ?_, trivial⟩ <;>
  · rintro x (hx | ⟨k, hx, -⟩)
    · cases hx; norm_num
    · cases hx

/-- C04 fails even for non-negative assignments: `omega_baryon = 0.5` on a new object is accepted and
makes `omega_cdm` negative. -/
theorem C04_omega_baryon_false :
    ¬ ∀ (N : Num) (ops : List Op) (s : PyObj), OkRun N nonnegativeSet ops (fresh PyPar.default) →
      run N ops (fresh PyPar.default) = some s → s.dens.Physical := by
  intro H
  obtain ⟨s1, h1, e1⟩ := set_omega_baryon (fresh PyPar.default) 0.5 (by norm_num)
    (by show ¬ allclose 0.5 (0.05 : ℝ); unfold allclose; norm_num [abs_of_pos])
    (by rw [default_dens]; norm_num)
  have h := (H wNum [.setattr (.settable .omega_baryon) (.float 0.5)] s1
    ⟨fun x hx => by
        rcases hx with hx | ⟨k, hx, -⟩
        · cases hx; norm_num
        · exact absurd hx (by simp), trivial⟩
    (by rw [run_setattr h1]; rfl)).1.1
  rw [e1, default_dens] at h
  norm_num at h

/-- C04 fails: a negative radiation density is accepted, and dark energy exceeds one. -/
theorem C04_omega_gamma_false :
    ∃ (N : Num) (ops : List Op) (s : PyObj), run N ops (fresh PyPar.default) = some s ∧
      s.dens.gamma < 0 ∧ 1 < s.dens.de := by
  obtain ⟨s1, h1, e1⟩ := set_omega_gamma (fresh PyPar.default) (-5) (by norm_num)
    (by show ¬ allclose (-5) (9e-5 : ℝ); unfold allclose; norm_num [abs_of_neg, abs_of_pos])
    (by rw [default_dens]; norm_num)
  refine ⟨wNum, [.setattr (.settable .omega_gamma) (.float (-5))], s1, by rw [run_setattr h1]; rfl, ?_, ?_⟩
  · rw [e1]; norm_num
  · rw [e1, default_dens]; norm_num

end Coffe
