import Verif.Spec.PyLists
import Verif.Proofs.PyIndep

/-! # Helper lemmas: the arrays behind the lists -/

namespace Coffe.Lists
open Classical Mem

/-- The arrays in `S` are in order: different blocks, holding `c`. -/
structure Inv (S : Set ParList) (c : ParList → List Cell) (m : Memory) (f : ParList → Arr) : Prop where
  size : ∀ i ∈ S, (f i).size = (c i).length
  block : ∀ i ∈ S, c i ≠ [] → ∃ a, (f i).array = .addr a ∧ m.block a = some ((c i).map some)
  apart : ∀ i ∈ S, ∀ j ∈ S, c i ≠ [] → c j ≠ [] → (f i).array = (f j).array → i = j

theorem set_block (m : Memory) (a : ℕ) (b) (c : ℕ) :
    (m.set a b).block c = if c = a then b else m.block c := by
  by_cases h : c = a
  · subst h; simp [Memory.set]
  · simp [Memory.set, h]

/-- Filling a block. -/
theorem fill_ok (a : ℕ) (l : List Cell) : ∀ (k : ℕ) (m : Memory) (b : List (Option Cell)),
    m.block a = some b → k + l.length = b.length →
    ∃ m', fill (.addr a) l k m = .ok ((), m') ∧ m'.block a = some (b.take k ++ l.map some) ∧
      ∀ c, c ≠ a → m'.block c = m.block c := by
  induction l with
  | nil =>
    intro k m b hb hk
    refine ⟨m, rfl, ?_, fun _ _ => rfl⟩
    simp only [List.length_nil, Nat.add_zero] at hk
    rw [hb, hk]
    simp
  | cons x l ih =>
    intro k m b hb hk
    simp only [List.length_cons] at hk
    have h1 : store (.addr a) k x m = .ok ((), m.set a (some (b.set k (some x)))) := by
      unfold store
      dsimp only
      rw [hb]
      dsimp only
      rw [if_pos (by omega)]
    obtain ⟨m', h2, h3, h4⟩ := ih (k + 1) (m.set a (some (b.set k (some x)))) (b.set k (some x))
      (by rw [set_block, if_pos rfl]) (by rw [List.length_set]; omega)
    refine ⟨m', ?_, ?_, ?_⟩
    · unfold fill
      exact (bind_ok' h1).trans h2
    · rw [h3]
      congr 1
      rw [List.take_succ_eq_append_getElem (by rw [List.length_set]; omega)]
      simp only [List.take_set, List.getElem_set_self]
      rw [List.set_eq_of_length_le (by simp)]
      simp
    · intro c hc
      rw [h4 c hc, set_block, if_neg hc]
where
  bind_ok' {α β : Type} {p : LM α} {q : α → LM β} {m m' : Memory} {a : α} (h : p m = .ok (a, m')) :
      (p >>= q) m = q a m' := by
    show (p m >>= fun x => q x.1 x.2) = _
    rw [h]; rfl

theorem lbind {α β : Type} {p : LM α} {q : α → LM β} {m m' : Memory} {a : α} (h : p m = .ok (a, m')) :
    (p >>= q) m = q a m' := by
  show (p m >>= fun x => q x.1 x.2) = _
  rw [h]; rfl

/-- Reading a block that is filled. -/
theorem loads_ok (a : ℕ) (m : Memory) (l : List Cell) (hb : m.block a = some (l.map some)) :
    ∀ n k, k + n = l.length → loads (.addr a) n k m = .ok (l.drop k, m) := by
  intro n
  induction n with
  | zero =>
    intro k hk
    have : l.drop k = [] := List.drop_eq_nil_of_le (by omega)
    rw [this]; rfl
  | succ n ih =>
    intro k hk
    have hk' : k < l.length := by omega
    have h1 : load (.addr a) k m = .ok (l[k], m) := by
      unfold load
      dsimp only
      rw [hb]
      dsimp only
      rw [List.getElem?_map, List.getElem?_eq_getElem hk']
      rfl
    unfold loads
    refine (lbind h1).trans ((lbind (ih (k + 1) (by omega))).trans ?_)
    rw [List.drop_eq_getElem_cons hk']
    rfl

theorem read_ok {S : Set ParList} {c : ParList → List Cell} {m : Memory} {f : ParList → Arr} (h : Inv S c m f)
    {i : ParList} (hi : i ∈ S) : read (f i) m = .ok (c i, m) := by
  unfold read
  rw [h.size i hi]
  by_cases hc : c i = []
  · rw [hc]; rfl
  · obtain ⟨a, ha, hb⟩ := h.block i hi hc
    rw [ha]
    exact loads_ok a m (c i) hb _ 0 (by omega)

/-- Storing a list in a new block. -/
theorem put_ok (A : Allocator) {S : Set ParList} {c : ParList → List Cell} {m : Memory} {f : ParList → Arr}
    (h : Inv S c m f) (i : ParList) (hi : i ∉ S) (l : List Cell) :
    ∃ f' m', put A i l f m = .ok (f', m') ∧ Inv (insert i S) (Function.update c i l) m' f' := by
  have hne : ∀ j ∈ S, j ≠ i := fun j hj e => hi (e ▸ hj)
  by_cases hl : l = []
  · -- nothing is stored
    subst hl
    have key : ∀ p m', (∀ b, m'.block b = m.block b ∨ m.block b = none) →
        Inv (insert i S) (Function.update c i []) m' (Function.update f i ⟨p, 0⟩) := by
      intro p m' hm'
      refine ⟨?_, ?_, ?_⟩
      · rintro j (rfl | hj)
        · simp
        · simp only [Function.update_of_ne (hne j hj)]
          exact h.size j hj
      · rintro j (rfl | hj) hc
        · simp at hc
        · simp only [Function.update_of_ne (hne j hj)] at hc ⊢
          obtain ⟨a, ha, hb⟩ := h.block j hj hc
          refine ⟨a, ha, ?_⟩
          rcases hm' a with e | e
          · rw [e, hb]
          · rw [e] at hb; cases hb
      · rintro j (rfl | hj) k (rfl | hk) hc hd
        · exact fun _ => rfl
        · simp at hc
        · simp at hd
        · simp only [Function.update_of_ne (hne j hj), Function.update_of_ne (hne k hk)] at hc hd ⊢
          exact h.apart j hj k hk hc hd
    rcases A.empty m with hp | ⟨a, hp, hu⟩
    · refine ⟨_, _, ?_, key .null ⟨m.requests + 1, m.block, m.bound, m.finite⟩ fun b => Or.inl rfl⟩
      unfold put
      refine (lbind (a := Ptr.null) (m' := ⟨m.requests + 1, m.block, m.bound, m.finite⟩) ?_).trans ?_
      · show malloc A 0 m = _
        unfold malloc
        rw [hp]
      · rfl
    · refine ⟨_, _, ?_, key (.addr a) (Memory.set ⟨m.requests + 1, m.block, m.bound, m.finite⟩ a (some []))
        fun b => ?_⟩
      · unfold put
        refine (lbind (a := Ptr.addr a) (m' := Memory.set ⟨m.requests + 1, m.block, m.bound, m.finite⟩ a
          (some [])) ?_).trans ?_
        · show malloc A 0 m = _
          unfold malloc
          rw [hp]
          rfl
        · rfl
      · rw [set_block]
        split_ifs with e
        · exact Or.inr (e ▸ hu)
        · exact Or.inl rfl
  · obtain ⟨a, hp, hu⟩ := A.unused m l.length (fun e => hl (List.eq_nil_of_length_eq_zero e))
    set m₁ : Memory := Memory.set ⟨m.requests + 1, m.block, m.bound, m.finite⟩ a
      (some (List.replicate l.length none)) with hm₁
    obtain ⟨m', h2, h3, h4⟩ := fill_ok a l 0 m₁ (List.replicate l.length none)
      (by rw [hm₁, set_block, if_pos rfl]) (by simp)
    have hb : ∀ b, b ≠ a → m'.block b = m.block b := fun b hb => by
      rw [h4 b hb, hm₁, set_block, if_neg hb]
    have hold : ∀ j ∈ S, c j ≠ [] → (f j).array ≠ .addr a := by
      intro j hj hc e
      obtain ⟨d, hd, hdb⟩ := h.block j hj hc
      rw [e] at hd
      cases hd
      rw [hu] at hdb
      cases hdb
    refine ⟨Function.update f i ⟨.addr a, l.length⟩, m', ?_, ?_, ?_, ?_⟩
    · unfold put
      refine (lbind (a := Ptr.addr a) (m' := m₁) ?_).trans ((lbind h2).trans rfl)
      unfold malloc
      rw [hp]
    · rintro j (rfl | hj)
      · simp
      · simp only [Function.update_of_ne (hne j hj)]
        exact h.size j hj
    · rintro j (rfl | hj) hc
      · refine ⟨a, by simp, ?_⟩
        rw [h3]; simp
      · simp only [Function.update_of_ne (hne j hj)] at hc ⊢
        obtain ⟨d, hd, hdb⟩ := h.block j hj hc
        refine ⟨d, hd, ?_⟩
        rw [hb d (fun e => hold j hj hc (e ▸ hd)), hdb]
    · rintro j (rfl | hj) k (rfl | hk) hc hd
      · exact fun _ => rfl
      · simp only [Function.update_of_ne (hne k hk), Function.update_self] at hd ⊢
        exact fun e => absurd e.symm (hold k hk hd)
      · simp only [Function.update_of_ne (hne j hj), Function.update_self] at hc ⊢
        exact fun e => absurd e (hold j hj hc)
      · simp only [Function.update_of_ne (hne j hj), Function.update_of_ne (hne k hk)] at hc hd ⊢
        exact h.apart j hj k hk hc hd

/-- Replacing a list. -/
theorem assign_ok (A : Allocator) {c : ParList → List Cell} {m : Memory} {f : ParList → Arr}
    (h : Inv Set.univ c m f) (i : ParList) (l : List Cell) :
    ∃ f' m', assign A i l f m = .ok (f', m') ∧ Inv Set.univ (Function.update c i l) m' f' := by
  -- after the release
  have key : ∃ m₁, (if (f i).size ≠ 0 then free (f i).array else pure ()) m = .ok ((), m₁) ∧
      Inv {i}ᶜ c m₁ f := by
    by_cases hz : (f i).size = 0
    · refine ⟨m, ?_, fun j _ => h.size j trivial, fun j _ => h.block j trivial,
        fun j _ k _ => h.apart j trivial k trivial⟩
      rw [if_neg (by simpa using hz)]; rfl
    · have hc : c i ≠ [] := by
        intro e
        apply hz
        rw [h.size i trivial, e]; rfl
      obtain ⟨a, ha, hb⟩ := h.block i trivial hc
      refine ⟨m.set a none, ?_, fun j _ => h.size j trivial, ?_, fun j _ k _ => h.apart j trivial k trivial⟩
      · rw [if_pos hz, ha]
        unfold free
        dsimp only
        rw [hb]
      · intro j hj hcj
        obtain ⟨d, hd, hdb⟩ := h.block j trivial hcj
        refine ⟨d, hd, ?_⟩
        rw [set_block, if_neg ?_, hdb]
        rintro rfl
        exact hj (h.apart j trivial i trivial hcj hc (hd.trans ha.symm))
  obtain ⟨m₁, h1, h2⟩ := key
  obtain ⟨f', m', h3, h4⟩ := put_ok A h2 i (by simp) l
  refine ⟨f', m', ?_, ?_⟩
  · unfold assign
    exact (lbind h1).trans h3
  · convert h4
    ext j
    by_cases e : j = i <;> simp [e]

theorem puts_ok (A : Allocator) : ∀ (d : List (ParList × List Cell)) {S : Set ParList} {c : ParList → List Cell}
    {m : Memory} {f : ParList → Arr}, Inv S c m f → (d.map Prod.fst).Nodup → (∀ x ∈ d, x.1 ∉ S) →
    ∃ f' m', puts A d f m = .ok (f', m') ∧ Inv (S ∪ {i | i ∈ d.map Prod.fst})
      (d.foldl (fun c x => Function.update c x.1 x.2) c) m' f' := by
  intro d
  induction d with
  | nil =>
    intro S c m f h _ _
    exact ⟨f, m, rfl, by simpa using h⟩
  | cons x d ih =>
    intro S c m f h hn hd
    obtain ⟨i, l⟩ := x
    simp only [List.map_cons, List.nodup_cons] at hn
    obtain ⟨f₁, m₁, h1, h2⟩ := put_ok A h i (hd (i, l) List.mem_cons_self) l
    obtain ⟨f', m', h3, h4⟩ := ih h2 hn.2 (by
      intro y hy
      rintro (e | e)
      · exact hn.1 (e ▸ List.mem_map_of_mem hy)
      · exact hd y (List.mem_cons_of_mem _ hy) e)
    refine ⟨f', m', ?_, ?_⟩
    · unfold puts
      exact (lbind h1).trans h3
    · have hS : S ∪ {j | j ∈ ((i, l) :: d).map Prod.fst} = insert i S ∪ {j | j ∈ d.map Prod.fst} := by
        ext j
        simp only [List.map_cons, List.mem_cons, Set.mem_union, Set.mem_setOf_eq, Set.mem_insert_iff]
        tauto
      rw [hS]
      exact h4

/-- What the arrays hold, seen from Python. -/
def view (p : PyPar) : ParList → List Cell
  | .sep => p.sep.map .double
  | .mu => p.mu.map .double
  | .multipole_values => p.l.map fun n : ℕ => .int n
  | .z_mean => p.z_mean.map .double
  | .deltaz => p.deltaz.map .double
  | .fsky => p.fsky.map .double
  | .density1 => p.density1.map .double
  | .density2 => p.density2.map .double
  | .pixelsize => p.pixelsize.map .double
  | .zmin => p.z_min.map .double
  | .zmax => p.z_max.map .double

theorem cells_view {n : Name} {i : ParList} (hn : parList n = some i) (p : PyPar) :
    cells (getattr p n) = view p i := by
  cases n <;> first
    | (cases hn; done)
    | (cases hn; simp [cells, getattr, view, Function.comp_def])

theorem default_ok (A : Allocator) (f₀ : ParList → Arr) (m : Memory) :
    ∃ f m', puts A defaultContents f₀ m = .ok (f, m') ∧ Inv Set.univ (view PyPar.default) m' f := by
  obtain ⟨f, m', h1, h2⟩ := puts_ok A defaultContents (S := ∅) (c := fun _ => []) (m := m) (f := f₀)
    ⟨fun _ h => h.elim, fun _ h => h.elim, fun _ h => h.elim⟩ (by simp [defaultContents]) (by simp)
  refine ⟨f, m', h1, ?_⟩
  convert h2
  · ext j
    cases j <;> simp [defaultContents]
  · funext j
    cases j <;> simp [defaultContents, view, PyPar.default, Function.update]

/-- Checking a list of numbers. -/
theorem checkFloats_cases (v : PyVal) (ok : ℝ → Prop) (s : PyObj) :
    (∃ x, checkFloats v ok s = (.ok x, s)) ∨ ∃ e, checkFloats v ok s = (.error e, s) := by
  unfold checkFloats
  split
  · split_ifs
    · exact Or.inl ⟨_, rfl⟩
    · exact Or.inr ⟨_, rfl⟩
  · split_ifs
    · exact Or.inl ⟨_, rfl⟩
    · exact Or.inr ⟨_, rfl⟩
  · exact Or.inr ⟨_, rfl⟩
  · exact Or.inr ⟨_, rfl⟩

theorem checkMultipoles_cases (v : PyVal) (s : PyObj) :
    (∃ x, checkMultipoles v s = (.ok x, s)) ∨ ∃ e, checkMultipoles v s = (.error e, s) := by
  unfold checkMultipoles
  split
  · split_ifs
    · exact Or.inl ⟨_, rfl⟩
    · exact Or.inr ⟨_, rfl⟩
  · exact Or.inl ⟨_, rfl⟩
  · exact Or.inr ⟨_, rfl⟩

theorem pbind_ok {α β : Type} {p : Py α} {q : α → Py β} {s s' : PyObj} {a : α} (h : p s = (.ok a, s')) :
    (p >>= q) s = q a s' := by
  show (match p s with | (.ok a, t) => q a t | (.error e, t) => (.error e, t)) = _
  rw [h]

theorem pbind_err {α β : Type} {p : Py α} {q : α → Py β} {s s' : PyObj} {e : Err} (h : p s = (.error e, s')) :
    (p >>= q) s = (.error e, s') := by
  show (match p s with | (.ok a, t) => q a t | (.error e, t) => (.error e, t)) = _
  rw [h]

theorem bridge_floats (v : PyVal) (ok : ℝ → Prop) (s : PyObj) (f : List ℝ → PyPar → PyPar) (free : PyObj → PyObj)
    (i : ParList) (hf : ∀ x, view (free (s.upd (f x))).par = Function.update (view s.par) i (x.map .double)) :
    (∃ e, (checkFloats v ok >>= fun x => pure (x.map Cell.double) : Py (List Cell)) s = (.error e, s) ∧
      (checkFloats v ok >>= fun x => Coffe.store (f x) free) s = (.error e, s)) ∨
    ∃ x s', ((checkFloats v ok >>= fun x => pure (x.map Cell.double) : Py (List Cell)) s).1 = .ok x ∧
      (checkFloats v ok >>= fun x => Coffe.store (f x) free) s = (.ok (), s') ∧
      view s'.par = Function.update (view s.par) i x := by
  rcases checkFloats_cases v ok s with ⟨x, hx⟩ | ⟨e, he⟩
  · right
    exact ⟨x.map .double, free (s.upd (f x)), by rw [pbind_ok hx]; rfl, (pbind_ok hx).trans rfl, hf x⟩
  · left
    exact ⟨e, pbind_err he, pbind_err he⟩

set_option maxHeartbeats 1000000 in
/-- The setters of the Python model and those over the memory decide alike. -/
theorem bridge {n : Name} {i : ParList} (hn : parList n = some i) (v : PyVal) (s : PyObj) :
    (∃ e, temp v i s = (.error e, s) ∧ setattr n v s = (.error e, s)) ∨
    ∃ x s', (temp v i s).1 = .ok x ∧ setattr n v s = (.ok (), s') ∧
      view s'.par = Function.update (view s.par) i x := by
  cases n
  case l =>
    cases hn
    rcases checkMultipoles_cases v s with ⟨x, hx⟩ | ⟨e, he⟩
    · right
      refine ⟨x.map fun n : ℕ => .int n, (s.upd fun p => { p with l := x }).freeMp.freeAmp.freeCov.freeAcov,
        ?_, ?_, ?_⟩
      · exact congrArg Prod.fst ((pbind_ok hx).trans rfl)
      · unfold setattr
        exact (pbind_ok hx).trans rfl
      · funext j
        cases j <;> rfl
    · left
      exact ⟨e, pbind_err he, by unfold setattr; exact pbind_err he⟩
  all_goals first
    | (cases hn; done)
    | (cases hn
       unfold setattr temp
       exact bridge_floats v _ s (fun x p => _) _ _ fun x => by funext j; cases j <;> rfl)

theorem Reach.inv {A : Allocator} {s : PyObj} {m : Memory} {f : ParList → Arr} (h : Reach A s m f) :
    Inv Set.univ (view s.par) m f := by
  induction h with
  | start m f₀ m' f h =>
    obtain ⟨f', m'', h1, h2⟩ := default_ok A f₀ m
    rw [h] at h1
    cases h1
    exact h2
  | assign s m f h n i hn v r f' m' hs ih =>
    unfold setter at hs
    rcases bridge hn v s with ⟨e, h1, h2⟩ | ⟨x, s', h1, h2, h3⟩
    · rw [h1] at hs
      cases hs
      rw [h2]
      exact ih
    · rw [h1] at hs
      obtain ⟨g, m₁, h4, h5⟩ := assign_ok A ih i x
      have : (do let f ← Lists.assign A i x f; pure (Except.ok (), f) : LM (Except Err Unit × (ParList → Arr))) m =
          .ok ((.ok (), g), m₁) := (lbind h4).trans rfl
      have hs' := this.symm.trans hs
      cases hs'
      rw [h2, show (Prod.snd (Except.ok (), s') : PyObj) = s' from rfl, h3]
      exact h5
  | other s m f h s' m' hs hm ih =>
    have hv : view s'.par = view s.par := by
      funext j
      have : ∃ n, parList n = some j := by
        cases j
        exacts [⟨.sep, rfl⟩, ⟨.mu, rfl⟩, ⟨.l, rfl⟩, ⟨.z_mean, rfl⟩, ⟨.deltaz, rfl⟩, ⟨.fsky, rfl⟩,
          ⟨.number_density1, rfl⟩, ⟨.number_density2, rfl⟩, ⟨.pixelsize, rfl⟩, ⟨.z_min, rfl⟩, ⟨.z_max, rfl⟩]
      obtain ⟨n, hn⟩ := this
      rw [← cells_view hn, ← cells_view hn, hs n j hn]
    rw [hv]
    refine ⟨ih.size, fun i hi hc => ?_, ih.apart⟩
    obtain ⟨a, ha, hb⟩ := ih.block i hi hc
    refine ⟨a, ha, ?_⟩
    rw [hm i a ?_ ha, hb]
    rw [ih.size i hi]
    exact fun e => hc (List.eq_nil_of_length_eq_zero e)

end Coffe.Lists
