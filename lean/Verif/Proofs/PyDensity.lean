import Verif.Proofs.PyIndep

/-! # Helper lemmas: density parameters over histories -/

namespace Coffe
open Classical

/-- What an assignment may do to the densities. -/
def DensStep (n : Name) (v : PyVal) (d d' : Dens) : Prop :=
  match n with
  | .omega_cdm => ∃ x, v.IsReal x ∧ x + d.baryon + d.gamma + d.nu ≤ 1 ∧
      d' = { d with cdm := x, m := x + d.baryon, de := 1 - (x + d.baryon) - d.gamma }
  | .omega_m => ∃ x, v.IsReal x ∧ x + d.gamma ≤ 1 ∧
      d' = { d with m := x, cdm := x - d.baryon - d.nu, de := 1 - x - d.gamma }
  | .omega_baryon => ∃ x, v.IsReal x ∧ x + d.cdm + d.gamma ≤ 1 ∧
      d' = { d with baryon := x, cdm := d.m - x - d.nu, de := 1 - d.m - d.gamma }
  | .omega_gamma => ∃ x, v.IsReal x ∧ x + d.m ≤ 1 ∧ d' = { d with gamma := x, de := 1 - d.m - x }
  | .h => ∃ x, v.IsReal x ∧ 0 ≤ x ∧ d' = { d with h := x, de := 1 - d.m - d.gamma }
  | .m_ncdm => ∃ x, v.IsReal x ∧ ((d.h = 0 ∧ d' = { d with m_ncdm := x }) ∨ (d.h ≠ 0 ∧
      d' = { d with m_ncdm := x, nu := x / 93.14 / d.h / d.h, cdm := d.m - d.baryon - x / 93.14 / d.h / d.h,
                    de := 1 - d.m - d.gamma }))
  | _ => False

theorem Post.guarded_val {P : PyObj → Prop} {v : PyVal} {a b : ℝ} {old : PyPar → ℝ} {act : ℝ → Py Unit}
    {s : PyObj} (h0 : P s) (h : ∀ x, v.IsReal x → a ≤ x → Post P (act x) s) :
    Post P (Coffe.guarded v .intFloat a b old act) s := by
  unfold Coffe.guarded Post
  have h1 := checkParameter_ends v .intFloat a b s
  unfold Ends at h1
  rw [Py.bind_eq]
  rcases hc : checkParameter v .intFloat a b s with ⟨o, s'⟩
  rw [hc] at h1
  cases o with
  | error e => dsimp only; dsimp only at h1; rw [h1]; exact h0
  | ok y =>
    obtain ⟨rfl, h2, h3, -⟩ := h1
    dsimp only
    rw [Py.bind_ok (Py.get_eq s')]
    split_ifs
    · exact h0
    · exact h y (asKind_intFloat h2) h3

theorem Post.omegas {P : PyObj → Prop} {x : ℝ} {f : Unit → Py Unit} {s : PyObj} (h0 : P s)
    (h : x ≤ 1 → Post P (f ()) s) : Post P (checkOmegas x >>= f) s := by
  unfold checkOmegas
  split_ifs with hx
  · exact h0
  · exact h (not_lt.1 hx)

theorem setattr_densStep (n : Name) (v : PyVal) (s : PyObj) :
    Post (fun s' => s'.dens = s.dens ∨ DensStep n v s.dens s'.dens) (setattr n v) s := by
  have h0 : s.dens = s.dens ∨ DensStep n v s.dens s.dens := Or.inl rfl
  by_cases hh : n = .h
  · subst hh
    unfold setattr
    exact Post.guarded_val h0 fun x hx h1 => Or.inr ⟨x, hx, h1, rfl⟩
  by_cases hn : n.density
  · cases n <;> first | exact hn.elim | skip
    case omega_cdm =>
      unfold setattr
      exact Post.guarded_val h0 fun x hx _ => Post.get_bind
        (Post.omegas h0 fun h1 => Or.inr ⟨x, hx, h1, rfl⟩)
    case omega_m =>
      unfold setattr
      exact Post.guarded_val h0 fun x hx _ => Post.get_bind
        (Post.omegas h0 fun h1 => Or.inr ⟨x, hx, h1, rfl⟩)
    case omega_baryon =>
      unfold setattr
      exact Post.guarded_val h0 fun x hx _ => Post.get_bind
        (Post.omegas h0 fun h1 => Or.inr ⟨x, hx, h1, rfl⟩)
    case omega_gamma =>
      unfold setattr
      exact Post.guarded_val h0 fun x hx _ => Post.get_bind
        (Post.omegas h0 fun h1 => Or.inr ⟨x, hx, h1, rfl⟩)
    case m_ncdm =>
      unfold setattr
      refine Post.guarded_val h0 fun x hx _ => Post.store_bind (Post.get_bind ?_)
      split_ifs with h
      · exact Or.inr ⟨x, hx, Or.inl ⟨h, rfl⟩⟩
      · exact Or.inr ⟨x, hx, Or.inr ⟨h, rfl⟩⟩
  · exact setattr_post n v s _ h0 fun t ht => Or.inl (stores_dens ht hn hh)

theorem parametersLoop_par (ns : List Name) : Keeps PyObj.par (parametersLoop ns) := by
  induction ns with
  | nil => intro s; rfl
  | cons n ns ih =>
    unfold parametersLoop
    refine Keeps.bind (fun s => ?_) fun _ => Keeps.bind ih fun _ => (still_pure _).keeps
    have h := self_par n s
    unfold parametersStep
    rcases hx : setattr n (getattr s.par n) s with ⟨o, s'⟩
    rw [hx] at h
    cases o with
    | ok a => exact h
    | error e => cases e <;> exact h

/-- Reading the parameters changes none of them. -/
theorem parameters_par : Keeps PyObj.par parameters := parametersLoop_par _

theorem keeps_forM {X α : Type} {f : PyObj → X} {g : α → Py Unit} (l : List α)
    (h : ∀ a ∈ l, Keeps f (g a)) : Keeps f (l.forM g) := by
  induction l with
  | nil => intro s; rfl
  | cons a l ih =>
    simp only [List.forM]
    exact Keeps.bind (h a List.mem_cons_self) fun _ => ih fun b hb => h b (List.mem_cons_of_mem _ hb)

theorem resetContributions_dens : Keeps PyObj.dens resetContributions := by
  unfold resetContributions
  refine Keeps.bind (fun s => congrArg PyPar.dens (parameters_par s)) fun ps => ?_
  refine keeps_forM _ fun kv hkv s => ?_
  have hf : kv.1 ∈ Name.flags := by simpa using (List.mem_filter.1 hkv).2
  have h1 : ¬ kv.1.density ∧ kv.1 ≠ .h := by
    simp only [Name.flags, List.mem_cons, List.not_mem_nil, or_false] at hf
    rcases hf with h | h | h | h | h | h | h | h | h | h | h | h | h | h | h <;> rw [h] <;>
      exact ⟨id, by simp⟩
  exact setattr_post kv.1 _ s (fun t => t.dens = s.dens) rfl fun t ht => stores_dens ht h1.1 h1.2

theorem Keeps.map {α β X : Type} {f : PyObj → X} {m : Py α} {g : α → β} (h : Keeps f m) :
    Keeps f (do let a ← m; pure (g a)) := Keeps.bind h fun _ => (still_pure _).keeps

/-- Calls other than assignments do not change the densities. -/
theorem exec_dens (N : Num) (op : Op) (h : ∀ a v, op ≠ .setattr a v) (h' : ∀ kvs, op ≠ .setParameters kvs) :
    Keeps PyObj.dens (exec N op) := by
  cases op with
  | setattr a v => exact absurd rfl (h a v)
  | setParameters kvs => exact absurd rfl (h' kvs)
  | parameters => exact Keeps.map fun s => congrArg PyPar.dens (parameters_par s)
  | resetContributions => exact Keeps.map resetContributions_dens
  | setBias n x y => exact Keeps.map (setBias_dens n x y)
  | setPowerSpectrumLinear k pk => exact Keeps.map (setPowerSpectrumLinear_dens k pk)
  | computeBulk b re => exact computeBulk_dens N re b
  | computeCorrfunc z r mu re => exact computeCorrfunc_dens N z r mu re
  | computeMultipole z r l re => exact computeMultipole_dens N z r l re
  | integral r n l => exact integralAt_dens N r n l
  | maximumSeparation z dz => exact Keeps.map (maximumSeparation_dens N z dz)
  | background f z => exact backgroundAt_dens N f z
  | spectrum two f k z1 z2 => exact spectrumAt_dens N two f k z1 z2

section
variable {Inv : Dens → Prop} {ok : PyObj → Name → PyVal → Prop}
  (step : ∀ s n v d', Inv s.dens → ok s n v → DensStep n v s.dens d' → Inv d')
include step

theorem setattr_inv {s : PyObj} {n : Name} {v : PyVal} (h : Inv s.dens) (hok : ok s n v) :
    Inv (setattr n v s).2.dens := by
  rcases setattr_densStep n v s with h1 | h1
  · rw [h1]; exact h
  · exact step s n v _ h hok h1

theorem setAll_inv (kvs : List (Attr × PyVal)) : ∀ s : PyObj, Inv s.dens → OkSets ok s kvs →
    Inv ((kvs.forM fun kv => setAttr kv.1 kv.2) s).2.dens := by
  induction kvs with
  | nil => intro s h _; exact h
  | cons kv kvs ih =>
    intro s h hs
    simp only [List.forM]
    rw [Py.bind_eq]
    obtain ⟨a, v⟩ := kv
    cases a with
    | settable n =>
      have h1 := setattr_inv step h hs.1
      have h2 := hs.2
      simp only [setAttr]
      rcases e : setattr n v s with ⟨o, s'⟩
      rw [e] at h1 h2
      cases o with
      | error e => exact h1
      | ok a => exact ih s' h1 h2
    | readonly => exact h
    | unknown => exact h

theorem exec_inv (N : Num) (op : Op) {s : PyObj} (h : Inv s.dens) (hok : OkOp ok s op) :
    Inv (exec N op s).2.dens := by
  by_cases h1 : ∃ a v, op = .setattr a v
  · obtain ⟨a, v, rfl⟩ := h1
    show Inv ((do setAttr a v; pure Out.unit : Py Out) s).2.dens
    rw [Py.bind_eq]
    cases a with
    | settable n =>
      have h2 := setattr_inv step h hok
      simp only [setAttr]
      rcases e : setattr n v s with ⟨o, s'⟩
      rw [e] at h2
      cases o <;> exact h2
    | readonly => exact h
    | unknown => exact h
  by_cases h2 : ∃ kvs, op = .setParameters kvs
  · obtain ⟨kvs, rfl⟩ := h2
    show Inv ((do setParameters kvs; pure Out.unit : Py Out) s).2.dens
    rw [Py.bind_eq]
    have h3 : Inv (setParameters kvs s).2.dens := by
      unfold setParameters
      dsimp only
      split_ifs
      · exact h
      · exact setAll_inv step kvs s h hok
    rcases e : setParameters kvs s with ⟨o, s'⟩
    rw [e] at h3
    cases o <;> exact h3
  rw [exec_dens N op (fun a v e => h1 ⟨a, v, e⟩) (fun kvs e => h2 ⟨kvs, e⟩) s]
  exact h

theorem run_inv (N : Num) (ops : List Op) : ∀ s s' : PyObj, Inv s.dens → OkRun N ok ops s →
    run N ops s = some s' → Inv s'.dens := by
  induction ops with
  | nil =>
    intro s s' h _ hr
    simp only [run, Option.some.injEq] at hr
    rw [← hr]; exact h
  | cons op ops ih =>
    intro s s' h hok hr
    have h1 := exec_inv step N op h hok.1
    have h2 := hok.2
    unfold run at hr
    rcases e : exec N op s with ⟨o, t⟩
    rw [e] at h1 h2 hr
    cases o with
    | ok a => exact ih t s' h1 h2 hr
    | error er =>
      cases er with
      | abort => cases hr
      | crash => cases hr
      | _ => exact ih t s' h1 h2 hr
end

end Coffe
