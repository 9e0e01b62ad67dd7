import Verif.Spec.Representation
import Mathlib.Data.List.Lex
import Mathlib.Data.List.Sort
import Mathlib.Order.Lex

/-!
# C81: results are fixed records of what was calculated
-/

namespace Coffe

variable {α : Type} {c : ReprClass}

theorem mapAll_iff {ε β γ : Type} {f : β → Except ε γ} :
    ∀ {l : List β} {r : List γ}, mapAll f l = .ok r ↔ List.Forall₂ (fun a b => f a = .ok b) l r
  | [], r => by
    unfold mapAll
    constructor
    · intro h; cases h; exact .nil
    · intro h; cases h; rfl
  | a :: l, r => by
    unfold mapAll
    constructor
    · intro h
      cases h1 : f a with
      | error e => rw [h1] at h; cases h
      | ok b =>
        rw [h1] at h
        cases h2 : mapAll f l with
        | error e => rw [h2] at h; cases h
        | ok bs =>
          rw [h2] at h
          cases h
          exact .cons h1 (mapAll_iff.1 h2)
    · intro h
      cases h with
      | cons h1 h2 => rw [h1, mapAll_iff.2 h2]

theorem lookup_of_mem {l : List (RAttr × α)} (hn : (l.map Prod.fst).Nodup) {k : RAttr} {v : α} (h : (k, v) ∈ l) :
    l.lookup k = some v := by
  induction l with
  | nil => cases h
  | cons x l ih =>
    obtain ⟨a, b⟩ := x
    rw [List.map_cons, List.nodup_cons] at hn
    rcases List.mem_cons.1 h with h | h
    · cases h
      simp [List.lookup]
    · have : k ≠ a := fun e => hn.1 (e ▸ List.mem_map.2 ⟨_, h, rfl⟩)
      rw [List.lookup_cons, beq_false_of_ne this]
      exact ih hn.2 h

theorem mem_of_lookup {l : List (RAttr × α)} {k : RAttr} {v : α} (h : l.lookup k = some v) : (k, v) ∈ l := by
  induction l with
  | nil => cases h
  | cons x l ih =>
    obtain ⟨a, b⟩ := x
    by_cases e : k = a
    · subst e
      simp [List.lookup] at h
      rw [h]
      exact List.mem_cons_self
    · rw [List.lookup_cons, beq_false_of_ne e] at h
      exact List.mem_cons_of_mem _ (ih h)

/-- What a successful construction says. -/
theorem construct_iff {args : List (RAttr × α)} {o : ReprObj α} : c.construct args = .ok o ↔
    (∀ a ∈ args, a.1 ∈ c.params) ∧ (args.map Prod.fst).Nodup ∧
      List.Forall₂ (fun p x => ∃ v, args.lookup p = some v ∧ x = (stored p, v)) c.params o.fields := by
  unfold ReprClass.construct
  have key : ∀ p x, keep args p = .ok x ↔ ∃ v, args.lookup p = some v ∧ x = (stored p, v) := by
    intro p x
    unfold keep
    cases args.lookup p with
    | none => exact ⟨fun h => (by cases h), fun ⟨v, h, _⟩ => (by cases h)⟩
    | some w =>
      exact ⟨fun h => (by cases h; exact ⟨w, rfl, rfl⟩), fun ⟨v, h, e⟩ => (by cases h; rw [e])⟩
  by_cases h1 : ∃ a ∈ args, a.1 ∉ c.params
  · rw [if_pos h1]
    obtain ⟨a, ha, hb⟩ := h1
    exact ⟨fun h => (by cases h), fun h => absurd (h.1 a ha) hb⟩
  · rw [if_neg h1]
    have h1' : ∀ a ∈ args, a.1 ∈ c.params := fun a ha => by
      by_contra hb
      exact h1 ⟨a, ha, hb⟩
    by_cases h2 : (args.map Prod.fst).Nodup
    · rw [if_neg (not_not.2 h2)]
      constructor
      · intro h
        refine ⟨h1', h2, ?_⟩
        split at h
        · next f hf =>
          cases h
          exact (mapAll_iff.1 hf).imp fun p x hx => (key p x).1 hx
        · cases h
      · rintro ⟨_, _, h⟩
        rw [mapAll_iff.2 (h.imp fun p x hx => (key p x).2 hx)]
    · rw [if_pos h2]
      exact ⟨fun h => (by cases h), fun h => absurd h.2.1 h2⟩

theorem fields_keys {args : List (RAttr × α)} {ps : List RAttr} {fs : List (RAttr × α)}
    (h : List.Forall₂ (fun p x => ∃ v, args.lookup p = some v ∧ x = (stored p, v)) ps fs) :
    fs.map Prod.fst = ps.map stored := by
  induction h with
  | nil => rfl
  | cons h _ ih =>
    obtain ⟨v, _, rfl⟩ := h
    rw [List.map_cons, List.map_cons, ih]

theorem fields_mem {args : List (RAttr × α)} {ps : List RAttr} {fs : List (RAttr × α)}
    (h : List.Forall₂ (fun p x => ∃ v, args.lookup p = some v ∧ x = (stored p, v)) ps fs) :
    ∀ p ∈ ps, ∃ v, args.lookup p = some v ∧ (stored p, v) ∈ fs := by
  induction h with
  | nil => intro p hp; cases hp
  | cons h _ ih =>
    obtain ⟨v, h1, rfl⟩ := h
    intro p hp
    rcases List.mem_cons.1 hp with rfl | hp
    · exact ⟨v, h1, List.mem_cons_self⟩
    · obtain ⟨w, h2, h3⟩ := ih p hp
      exact ⟨w, h2, List.mem_cons_of_mem _ h3⟩

theorem stored_injective : Function.Injective stored := fun _ _ h => List.tail_eq_of_cons_eq h

theorem property_lookup (hc : c.Regular) {p : RAttr} (hp : p ∈ c.params) : c.properties.lookup p = some (stored p) := by
  obtain ⟨x, hx, rfl⟩ := List.mem_map.1 (hc.names.mem_iff.2 hp)
  have := lookup_of_mem (hc.names.nodup_iff.2 hc.once) (k := x.1) (v := x.2) hx
  rw [this, hc.held x hx]
  rfl

/-- **C81**: every attribute of a result is what the constructor was given under that name. -/
theorem C81_attributes (hc : c.Regular) {args : List (RAttr × α)} {o : ReprObj α} (h : c.construct args = .ok o) {k : RAttr} {v : α}
    (hk : (k, v) ∈ args) : c.getattr o k = .ok v := by
  obtain ⟨h1, h2, h3⟩ := construct_iff.1 h
  have hp : k ∈ c.params := h1 _ hk
  obtain ⟨w, h4, h5⟩ := fields_mem h3 k hp
  rw [lookup_of_mem h2 hk] at h4
  cases h4
  unfold ReprClass.getattr
  rw [property_lookup hc hp]
  dsimp only
  rw [lookup_of_mem (by rw [fields_keys h3]; exact hc.once.map stored_injective) h5]

/-- **C81**: a result can be built exactly if every parameter is given once and nothing else is. -/
theorem C81_constructor (hc : c.Regular) (args : List (RAttr × α)) :
    (∃ o, c.construct args = .ok o) ↔ (args.map Prod.fst).Perm c.params := by
  constructor
  · rintro ⟨o, h⟩
    obtain ⟨h1, h2, h3⟩ := construct_iff.1 h
    rw [List.perm_ext_iff_of_nodup h2 hc.once]
    intro k
    constructor
    · intro hk
      obtain ⟨x, hx, rfl⟩ := List.mem_map.1 hk
      exact h1 x hx
    · intro hk
      obtain ⟨v, h4, _⟩ := fields_mem h3 k hk
      exact List.mem_map.2 ⟨_, mem_of_lookup h4, rfl⟩
  · intro h
    have h2 : (args.map Prod.fst).Nodup := h.nodup_iff.2 hc.once
    have : ∀ ps : List RAttr, (∀ p ∈ ps, p ∈ c.params) → ∃ fs : List (RAttr × α),
        List.Forall₂ (fun p x => ∃ v, args.lookup p = some v ∧ x = (stored p, v)) ps fs := by
      intro ps
      induction ps with
      | nil => exact fun _ => ⟨[], .nil⟩
      | cons p ps ih =>
        intro hp
        obtain ⟨fs, hf⟩ := ih fun q hq => hp q (List.mem_cons_of_mem _ hq)
        obtain ⟨x, hx, rfl⟩ := List.mem_map.1 (h.mem_iff.2 (hp p List.mem_cons_self))
        exact ⟨(stored x.1, x.2) :: fs, .cons ⟨x.2, lookup_of_mem h2 hx, rfl⟩ hf⟩
    obtain ⟨fs, hf⟩ := this c.params fun _ hp => hp
    exact ⟨⟨fs⟩, construct_iff.2 ⟨fun a ha => h.mem_iff.1 (List.mem_map.2 ⟨a, ha, rfl⟩), h2, hf⟩⟩

theorem mapAll_error {ε β γ : Type} {f : β → Except ε γ} {e : ε} : ∀ {l : List β}, mapAll f l = .error e → ∃ a ∈ l, f a = .error e
  | [], h => by unfold mapAll at h; cases h
  | a :: l, h => by
    unfold mapAll at h
    cases h1 : f a with
    | error e' => rw [h1] at h; cases h; exact ⟨a, List.mem_cons_self, h1⟩
    | ok b =>
      rw [h1] at h
      cases h2 : mapAll f l with
      | error e' =>
        rw [h2] at h
        cases h
        obtain ⟨x, hx, hy⟩ := mapAll_error h2
        exact ⟨x, List.mem_cons_of_mem _ hx, hy⟩
      | ok bs => rw [h2] at h; cases h

/-- **C81**: otherwise the exception is a `TypeError`. -/
theorem C81_refused (hc : c.Regular) (args : List (RAttr × α)) (h : ¬ (args.map Prod.fst).Perm c.params) :
    c.construct args = .error .typeError := by
  cases hr : c.construct args with
  | ok o => exact absurd ((C81_constructor hc args).1 ⟨o, hr⟩) h
  | error e =>
    unfold ReprClass.construct at hr
    split at hr
    · exact hr.symm
    · split at hr
      · exact hr.symm
      · cases hm : mapAll (keep args) c.params with
        | ok f => rw [hm] at hr; cases hr
        | error e' =>
          rw [hm] at hr
          cases hr
          obtain ⟨p, _, hp⟩ := mapAll_error hm
          unfold keep at hp
          cases hl : args.lookup p with
          | none => rw [hl] at hp; cases hp; rfl
          | some v => rw [hl] at hp; cases hp

theorem public_not_dunder {p : RAttr} (h : p.head? ≠ some '_') : dunder p = false := by
  unfold dunder
  split
  · exact absurd rfl h
  · rfl

/-- The names that `to_dict` goes through. -/
theorem dict_names (hc : c.Regular) {extra : List (RAttr × ClassAttr)} (he : ∀ x ∈ extra, dunder x.1 = true) :
    (((dirOf (c.attrs extra)).filter fun x => x.2.hasSet && !dunder x.1).map Prod.fst).Perm c.params := by
  have h1 : ((c.attrs extra).filter fun x => x.2.hasSet && !dunder x.1) =
      c.properties.map (fun x => (x.1, ClassAttr.property x.2)) := by
    unfold ReprClass.attrs
    rw [List.filter_append, List.filter_append]
    have a : extra.filter (fun x => x.2.hasSet && !dunder x.1) = [] := by
      rw [List.filter_eq_nil_iff]
      intro x hx
      simp [he x hx]
    have b : (c.properties.map fun x => (x.1, ClassAttr.property x.2)).filter (fun x => x.2.hasSet && !dunder x.1) =
        c.properties.map fun x => (x.1, ClassAttr.property x.2) := by
      rw [List.filter_eq_self]
      intro x hx
      obtain ⟨y, hy, rfl⟩ := List.mem_map.1 hx
      have : dunder y.1 = false :=
        public_not_dunder (hc.public_ y.1 (hc.names.mem_iff.1 (List.mem_map.2 ⟨y, hy, rfl⟩)))
      simp [ClassAttr.hasSet, this]
    rw [a, b]
    simp [ClassAttr.hasSet]
  have h2 : ((dirOf (c.attrs extra)).filter fun x => x.2.hasSet && !dunder x.1).Perm
      (c.properties.map fun x => (x.1, ClassAttr.property x.2)) := by
    rw [← h1]
    exact (List.perm_insertionSort _ _).filter _
  refine (h2.map Prod.fst).trans ?_
  rw [List.map_map]
  exact hc.names

/-- **C81**: the dictionary of a result has what the constructor was given, by name, in the order of the names. -/
theorem C81_dict (hc : c.Regular) {extra : List (RAttr × ClassAttr)} (he : ∀ x ∈ extra, dunder x.1 = true)
    {args : List (RAttr × α)} {o : ReprObj α} (h : c.construct args = .ok o) :
    ∃ d, c.toDict extra o = .ok d ∧ d.Perm args ∧ (d.map Prod.fst).Pairwise (· ≤ ·) := by
  have hn := dict_names hc he
  have hargs := (C81_constructor hc args).1 ⟨o, h⟩
  have h2 : (args.map Prod.fst).Nodup := (construct_iff.1 h).2.1
  set ks := (dirOf (c.attrs extra)).filter fun x => x.2.hasSet && !dunder x.1 with hks
  have hsort : (ks.map Prod.fst).Pairwise (· ≤ ·) := by
    rw [List.pairwise_map, hks]
    refine List.Pairwise.filter _ ?_
    exact List.pairwise_insertionSort (fun a b : RAttr × ClassAttr => a.1 ≤ b.1) _
  have key : ∀ l : List (RAttr × ClassAttr), (∀ x ∈ l, x.1 ∈ c.params) → ∃ d, mapAll (fun x => match c.getattr o x.1 with
      | .ok v => .ok (x.1, v)
      | .error e => .error e) l = .ok d ∧ d.map Prod.fst = l.map Prod.fst ∧ ∀ x ∈ d, x ∈ args := by
    intro l
    induction l with
    | nil => exact fun _ => ⟨[], rfl, rfl, fun x hx => (by cases hx)⟩
    | cons x l ih =>
      intro hl
      obtain ⟨d, d1, d2, d3⟩ := ih fun y hy => hl y (List.mem_cons_of_mem _ hy)
      obtain ⟨y, hy, e⟩ := List.mem_map.1 (hargs.mem_iff.2 (hl x List.mem_cons_self))
      have hg : c.getattr o x.1 = .ok y.2 := by
        rw [← e]
        exact C81_attributes hc h hy
      refine ⟨(x.1, y.2) :: d, ?_, ?_, ?_⟩
      · unfold mapAll
        rw [hg, d1]
      · rw [List.map_cons, List.map_cons, d2]
      · intro z hz
        rcases List.mem_cons.1 hz with rfl | hz
        · rw [← e]; exact hy
        · exact d3 z hz
  obtain ⟨d, d1, d2, d3⟩ := key ks fun x hx => hn.mem_iff.1 (List.mem_map.2 ⟨x, hx, rfl⟩)
  refine ⟨d, d1, ?_, by rw [d2]; exact hsort⟩
  have hdn : (d.map Prod.fst).Nodup := by rw [d2]; exact hn.nodup_iff.2 hc.once
  rw [List.perm_ext_iff_of_nodup hdn.of_map h2.of_map]
  intro x
  refine ⟨d3 x, fun hx => ?_⟩
  have : x.1 ∈ d.map Prod.fst := by
    rw [d2, hn.mem_iff]
    exact hargs.mem_iff.1 (List.mem_map.2 ⟨x, hx, rfl⟩)
  obtain ⟨y, hy, e⟩ := List.mem_map.1 this
  have a := lookup_of_mem h2 (k := y.1) (v := y.2) (d3 y hy)
  have b := lookup_of_mem h2 (k := x.1) (v := x.2) hx
  rw [e, b] at a
  have : x = y := Prod.ext e.symm (Option.some.inj a)
  rw [this]
  exact hy

/-- Assignments to public names do not reach what the properties return. -/
theorem assigned_held (l : List (RAttr × α)) (hl : ∀ x ∈ l, x.1.head? ≠ some '_') (o : ReprObj α) (p : RAttr) :
    (assigned c o l).fields.lookup (stored p) = o.fields.lookup (stored p) := by
  induction l generalizing o with
  | nil => rfl
  | cons x l ih =>
    obtain ⟨k, v⟩ := x
    have hk := hl _ List.mem_cons_self
    have hl' := fun y hy => hl y (List.mem_cons_of_mem _ hy)
    unfold assigned ReprClass.setattr
    cases c.properties.lookup k with
    | some s => exact ih hl' o
    | none =>
      refine (ih hl' _).trans ?_
      have : stored p ≠ k := fun e => hk (by rw [← e]; rfl)
      show List.lookup (stored p) ((k, v) :: o.fields) = _
      rw [List.lookup_cons, beq_false_of_ne this]

/-- **C81**: no sequence of assignments to public names, of any length, changes an attribute or the dictionary of a result. -/
theorem C81_fixed (hc : c.Regular) {extra : List (RAttr × ClassAttr)} (he : ∀ x ∈ extra, dunder x.1 = true) (o : ReprObj α)
    (l : List (RAttr × α)) (hl : ∀ x ∈ l, x.1.head? ≠ some '_') :
    (∀ p ∈ c.params, c.getattr (assigned c o l) p = c.getattr o p) ∧ c.toDict extra (assigned c o l) = c.toDict extra o := by
  have h1 : ∀ p ∈ c.params, c.getattr (assigned c o l) p = c.getattr o p := by
    intro p hp
    unfold ReprClass.getattr
    rw [property_lookup hc hp]
    dsimp only
    rw [assigned_held l hl]
  refine ⟨h1, ?_⟩
  have hn := dict_names hc he
  unfold ReprClass.toDict
  have : ∀ ks : List (RAttr × ClassAttr), (∀ x ∈ ks, x.1 ∈ c.params) →
      mapAll (fun x => match c.getattr (assigned c o l) x.1 with
        | .ok v => .ok (x.1, v)
        | .error e => .error e) ks = mapAll (fun x => match c.getattr o x.1 with
        | .ok v => .ok (x.1, v)
        | .error e => .error e) ks := by
    intro ks
    induction ks with
    | nil => exact fun _ => rfl
    | cons x ks ih =>
      intro hk
      unfold mapAll
      rw [ih fun y hy => hk y (List.mem_cons_of_mem _ hy), h1 x.1 (hk x List.mem_cons_self)]
  exact this _ fun x hx => hn.mem_iff.1 (List.mem_map.2 ⟨x, hx, rfl⟩)

/-- **C81**: the theorems apply to all five classes. -/
theorem C81_classes : covarianceClass.Regular ∧ averageCovarianceClass.Regular ∧ corrfuncClass.Regular ∧
    multipolesClass.Regular ∧ averageMultipolesClass.Regular := by
  refine ⟨⟨?_, ?_, ?_, ?_⟩, ⟨?_, ?_, ?_, ?_⟩, ⟨?_, ?_, ?_, ?_⟩, ⟨?_, ?_, ?_, ?_⟩, ⟨?_, ?_, ?_, ?_⟩⟩ <;> decide

/-- The names in the dictionaries of the five classes. -/
theorem C81_names : covarianceClass.params.insertionSort (· ≤ ·) = ["l1", "l2", "r1", "r2", "value", "z"].map String.toList ∧
    averageCovarianceClass.params.insertionSort (· ≤ ·) = ["l1", "l2", "r1", "r2", "value", "z_max", "z_min"].map String.toList ∧
    corrfuncClass.params.insertionSort (· ≤ ·) = ["mu", "r", "value", "z"].map String.toList ∧
    multipolesClass.params.insertionSort (· ≤ ·) = ["l", "r", "value", "z"].map String.toList ∧
    averageMultipolesClass.params.insertionSort (· ≤ ·) = ["l", "r", "value", "z_max", "z_min"].map String.toList := by
  decide +kernel

/-- **C81 fails** for names that begin with an underscore: an assignment to `_value` changes the value of a result. -/
theorem C81_private_false : ∃ o : ReprObj ℕ, multipolesClass.construct
      [("l".toList, 0), ("r".toList, 100), ("z".toList, 1), ("value".toList, 7)] = .ok o ∧
    multipolesClass.getattr o "value".toList = .ok 7 ∧
    multipolesClass.getattr (assigned multipolesClass o [("_value".toList, 8)]) "value".toList = .ok 8 :=
  ⟨_, rfl, rfl, rfl⟩

/-- Non-vacuity: the dictionary of a multipole, before and after assignments. -/
example : ∃ o : ReprObj ℕ, multipolesClass.construct
      [("z".toList, 1), ("l".toList, 0), ("value".toList, 7), ("r".toList, 100)] = .ok o ∧
    multipolesClass.toDict [("__weakref__".toList, .slot)] o =
      .ok [("l".toList, 0), ("r".toList, 100), ("value".toList, 7), ("z".toList, 1)] ∧
    multipolesClass.toDict [("__weakref__".toList, .slot)] (assigned multipolesClass o [("value".toList, 8), ("x".toList, 8)]) =
      .ok [("l".toList, 0), ("r".toList, 100), ("value".toList, 7), ("z".toList, 1)] :=
  ⟨_, rfl, by decide +kernel, by decide +kernel⟩

end Coffe
