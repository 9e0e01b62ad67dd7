import Verif.Proofs.PyCoherent
import Verif.Spec.PySetters

/-! # Helper lemmas: how an assignment ends -/

namespace Coffe
open Classical

/-- The method returns with `S` or raises with `E`. -/
def Ends {α : Type} (m : Py α) (s : PyObj) (S : α → PyObj → Prop) (E : Err → PyObj → Prop) : Prop :=
  match m s with
  | (.ok a, s') => S a s'
  | (.error e, s') => E e s'

theorem Ends.bind {α β : Type} {m : Py α} {f : α → Py β} {s : PyObj} {S : α → PyObj → Prop}
    {T : β → PyObj → Prop} {E : Err → PyObj → Prop} (h : Ends m s S E)
    (h' : ∀ a s', S a s' → Ends (f a) s' T E) : Ends (m >>= f) s T E := by
  unfold Ends at h ⊢
  rw [Py.bind_eq]
  rcases hx : m s with ⟨o, s'⟩
  rw [hx] at h
  cases o with
  | error e => exact h
  | ok a => exact h' a s' h

theorem Ends.mono {α : Type} {m : Py α} {s : PyObj} {S S' : α → PyObj → Prop}
    {E E' : Err → PyObj → Prop} (h : Ends m s S E) (h1 : ∀ a s', S a s' → S' a s')
    (h2 : ∀ e s', E e s' → E' e s') : Ends m s S' E' := by
  unfold Ends at h ⊢
  rcases hx : m s with ⟨o, s'⟩
  rw [hx] at h
  cases o with
  | error e => exact h2 _ _ h
  | ok a => exact h1 _ _ h

/-- A check in front of the rest: on failure nothing has changed. -/
theorem Ends.check {α β : Type} {m : Py α} {f : α → Py β} {s : PyObj} {S : α → Prop}
    {T : β → PyObj → Prop} {E : Err → PyObj → Prop} (h : Ends m s (fun a s' => s' = s ∧ S a) (fun _ s' => s' = s))
    (hE : ∀ e, E e s) (h' : ∀ a, S a → Ends (f a) s T E) : Ends (m >>= f) s T E := by
  refine Ends.bind (h.mono (fun _ _ h => h) fun e s' h => ?_) fun a s' ⟨h1, h2⟩ => ?_
  · rw [h]; exact hE e
  · rw [h1]; exact h' a h2

theorem asKind_intFloat {v : PyVal} {x : ℝ} (h : v.asKind .intFloat = some x) : v.IsReal x := by
  cases v with
  | float y => left; simp only [PyVal.asKind, Option.some.injEq] at h; rw [h]
  | int n => right; left; simp only [PyVal.asKind, Option.some.injEq] at h; exact ⟨n, rfl, h.symm⟩
  | bool b =>
    simp only [PyVal.asKind, Option.some.injEq] at h
    right; right
    cases b
    · exact Or.inr ⟨rfl, by simpa using h.symm⟩
    · exact Or.inl ⟨rfl, by simpa using h.symm⟩
  | _ => simp [PyVal.asKind] at h

theorem asKind_float {v : PyVal} {x : ℝ} (h : v.asKind .float = some x) : v = .float x := by
  cases v <;> simp [PyVal.asKind] at h
  rw [h]

theorem checkParameter_ends (v : PyVal) (k : Kind) (a b : ℝ) (s : PyObj) :
    Ends (checkParameter v k a b) s (fun x s' => s' = s ∧ (v.asKind k = some x ∧ a ≤ x ∧ x ≤ b))
      (fun _ s' => s' = s) := by
  unfold checkParameter Ends
  cases h : v.asKind k with
  | none => rfl
  | some x =>
    dsimp only
    by_cases h1 : x < a
    · rw [if_pos h1]; rfl
    by_cases h2 : x > b
    · rw [if_neg h1, if_pos h2]; rfl
    · rw [if_neg h1, if_neg h2]
      exact ⟨rfl, rfl, not_lt.1 h1, not_lt.1 h2⟩

theorem checkInt_ends (v : PyVal) (a b : ℤ) (s : PyObj) :
    Ends (checkInt v a b) s (fun x s' => s' = s ∧ (v.IsInt x ∧ a ≤ x ∧ x ≤ b)) (fun _ s' => s' = s) := by
  unfold checkInt Ends
  cases v with
  | int n =>
    dsimp only
    by_cases h1 : n < a
    · rw [if_pos h1]; rfl
    by_cases h2 : n > b
    · rw [if_neg h1, if_pos h2]; rfl
    · rw [if_neg h1, if_neg h2]
      exact ⟨rfl, Or.inl rfl, not_lt.1 h1, not_lt.1 h2⟩
  | bool t =>
    dsimp only
    by_cases h1 : (if t = true then (1 : ℤ) else 0) < a
    · rw [if_pos h1]; rfl
    by_cases h2 : (if t = true then (1 : ℤ) else 0) > b
    · rw [if_neg h1, if_pos h2]; rfl
    · rw [if_neg h1, if_neg h2]
      refine ⟨rfl, ?_, not_lt.1 h1, not_lt.1 h2⟩
      cases t
      · exact Or.inr (Or.inr ⟨rfl, rfl⟩)
      · exact Or.inr (Or.inl ⟨rfl, rfl⟩)
  | _ => rfl

theorem toDouble_ends (v : PyVal) (s : PyObj) :
    Ends (toDouble v) s (fun x s' => s' = s ∧ v.IsReal x) (fun _ s' => s' = s) := by
  unfold toDouble Ends
  cases v with
  | float x => exact ⟨rfl, Or.inl rfl⟩
  | int n => exact ⟨rfl, Or.inr (Or.inl ⟨n, rfl, rfl⟩)⟩
  | bool t =>
    refine ⟨rfl, Or.inr (Or.inr ?_)⟩
    cases t
    · exact Or.inr ⟨rfl, by simp⟩
    · exact Or.inl ⟨rfl, by simp⟩
  | _ => rfl

theorem truncInt_cast (n : ℤ) : truncInt (n : ℝ) = n := by
  unfold truncInt
  split_ifs <;> simp

theorem toInt_ends (v : PyVal) (s : PyObj) (hv : ∀ x, v = .float x → ∃ k : ℤ, x = k) :
    Ends (toInt v) s (fun x s' => s' = s ∧ v.IsIntegral x) (fun _ s' => s' = s) := by
  unfold toInt Ends
  cases v with
  | int n => exact ⟨rfl, Or.inl (Or.inl rfl)⟩
  | float x =>
    obtain ⟨k, rfl⟩ := hv x rfl
    exact ⟨rfl, Or.inr (by rw [truncInt_cast])⟩
  | bool t =>
    refine ⟨rfl, Or.inl (Or.inr ?_)⟩
    cases t
    · exact Or.inr ⟨rfl, by simp⟩
    · exact Or.inl ⟨rfl, by simp⟩
  | _ => rfl

theorem checkOmegas_ends (x : ℝ) (s : PyObj) :
    Ends (checkOmegas x) s (fun _ s' => s' = s ∧ x ≤ 1) (fun _ s' => s' = s) := by
  unfold checkOmegas Ends
  by_cases h : x > 1
  · rw [if_pos h]; rfl
  · rw [if_neg h]; exact ⟨rfl, not_lt.1 h⟩

theorem checkFloats_ends (v : PyVal) (ok : ℝ → Prop) (s : PyObj) :
    Ends (checkFloats v ok) s (fun l s' => s' = s ∧ (v.IsReals l ∧ ∀ x ∈ l, ok x)) (fun _ s' => s' = s) := by
  unfold checkFloats Ends
  cases v with
  | floats l =>
    dsimp only
    by_cases h : ∀ x ∈ l, ok x
    · rw [if_pos h]; exact ⟨rfl, Or.inl rfl, h⟩
    · rw [if_neg h]; rfl
  | ints l =>
    dsimp only
    by_cases h : ∀ n ∈ l, ok ((n : ℤ) : ℝ)
    · rw [if_pos h]
      refine ⟨rfl, Or.inr ⟨l, rfl, rfl⟩, ?_⟩
      intro x hx
      obtain ⟨n, hn, rfl⟩ := List.mem_map.1 hx
      exact h n hn
    · rw [if_neg h]; rfl
  | _ => rfl

theorem checkMultipoles_ends (v : PyVal) (s : PyObj) :
    Ends (checkMultipoles v) s (fun l s' => s' = s ∧ ∃ ns : List ℤ, (v = .ints ns ∨ (v = .floats [] ∧ ns = [])) ∧
      (∀ n ∈ ns, 0 ≤ n ∧ n < 10) ∧ l.map (fun n : ℕ => (n : ℤ)) = ns) (fun _ s' => s' = s) := by
  unfold checkMultipoles Ends
  cases v with
  | ints l =>
    dsimp only
    by_cases h : ∀ n ∈ l, 0 ≤ n ∧ n < 10
    · rw [if_pos h]
      refine ⟨rfl, l, Or.inl rfl, h, ?_⟩
      rw [List.map_map]
      conv_rhs => rw [← List.map_id l]
      refine List.map_congr_left fun n hn => ?_
      simp [(h n hn).1]
    · rw [if_neg h]; rfl
  | floats l =>
    cases l with
    | nil => exact ⟨rfl, [], Or.inr ⟨rfl, rfl⟩, by simp, rfl⟩
    | cons a l => rfl
  | _ => rfl

theorem checkPopulations_ends (v : PyVal) (s : PyObj) :
    Ends (checkPopulations v) s (fun q s' => s' = s ∧ ((v = .ints [q.1, q.2.1, q.2.2.1, q.2.2.2] ∨
      v = .floats [(q.1 : ℝ), (q.2.1 : ℝ), (q.2.2.1 : ℝ), (q.2.2.2 : ℝ)]) ∧
      ∀ n ∈ [q.1, q.2.1, q.2.2.1, q.2.2.2], 1 ≤ n ∧ n ≤ 4)) (fun _ s' => s' = s) := by
  unfold checkPopulations Ends
  cases v with
  | ints l =>
    match l with
    | [a, b, c, d] =>
      dsimp only
      by_cases h : ∀ n ∈ [a, b, c, d], n = 1 ∨ n = 2 ∨ n = 3 ∨ n = 4
      · rw [if_pos h]
        refine ⟨rfl, Or.inl rfl, fun n hn => ?_⟩
        rcases h n hn with h | h | h | h <;> omega
      · rw [if_neg h]; rfl
    | [] => rfl
    | [_] => rfl
    | [_, _] => rfl
    | [_, _, _] => rfl
    | _ :: _ :: _ :: _ :: _ :: _ => rfl
  | floats l =>
    match l with
    | [a, b, c, d] =>
      dsimp only
      by_cases h : ∀ x ∈ [a, b, c, d], x = 1 ∨ x = 2 ∨ x = 3 ∨ x = 4
      · rw [if_pos h]
        have key : ∀ x ∈ [a, b, c, d], ((truncInt x : ℤ) : ℝ) = x ∧ 1 ≤ truncInt x ∧ truncInt x ≤ 4 := by
          intro x hx
          have : ∃ k : ℤ, x = k ∧ 1 ≤ k ∧ k ≤ 4 := by
            rcases h x hx with h | h | h | h
            exacts [⟨1, by simp [h], by omega, by omega⟩, ⟨2, by simp [h], by omega, by omega⟩,
              ⟨3, by simp [h], by omega, by omega⟩, ⟨4, by simp [h], by omega, by omega⟩]
          obtain ⟨k, rfl, h1, h2⟩ := this
          rw [truncInt_cast]
          exact ⟨rfl, h1, h2⟩
        refine ⟨rfl, Or.inr ?_, ?_⟩
        · dsimp only
          rw [(key a (by simp)).1, (key b (by simp)).1, (key c (by simp)).1, (key d (by simp)).1]
        · intro n hn
          simp only [List.mem_cons, List.not_mem_nil, or_false] at hn
          rcases hn with rfl | rfl | rfl | rfl
          exacts [(key a (by simp)).2, (key b (by simp)).2, (key c (by simp)).2, (key d (by simp)).2]
      · rw [if_neg h]; rfl
    | [] => rfl
    | [_] => rfl
    | [_, _] => rfl
    | [_, _, _] => rfl
    | _ :: _ :: _ :: _ :: _ :: _ => rfl
  | _ => rfl

theorem checkDiscrete_ends {α : Type} (v : PyVal) (f : ℤ → Option α) (g : String → Option α) (s : PyObj) :
    Ends (checkDiscrete v f g) s (fun a s' => s' = s ∧ ((∃ n, v.IsIntegral n ∧ f n = some a) ∨
      ∃ t, v = .str t ∧ g t = some a)) (fun _ s' => s' = s) := by
  unfold checkDiscrete Ends
  cases v with
  | int n =>
    dsimp only
    cases h : f n with
    | none => rfl
    | some a => exact ⟨rfl, Or.inl ⟨n, Or.inl (Or.inl rfl), h⟩⟩
  | float x =>
    dsimp only
    by_cases hx : x = (truncInt x : ℝ)
    · rw [if_pos hx]
      cases h : f (truncInt x) with
      | none => rfl
      | some a => exact ⟨rfl, Or.inl ⟨_, Or.inr (congrArg PyVal.float hx), h⟩⟩
    · rw [if_neg hx]; rfl
  | bool b =>
    dsimp only
    cases h : f (if b = true then 1 else 0) with
    | none => rfl
    | some a =>
      refine ⟨rfl, Or.inl ⟨_, ?_, h⟩⟩
      cases b
      · exact Or.inl (Or.inr (Or.inr ⟨rfl, rfl⟩))
      · exact Or.inl (Or.inr (Or.inl ⟨rfl, rfl⟩))
  | str t =>
    dsimp only
    cases h : g t with
    | none => rfl
    | some a => exact ⟨rfl, Or.inr ⟨t, rfl, h⟩⟩
  | _ => rfl

/-- Guarded setters. -/
theorem guarded_ends {v : PyVal} {a b : ℝ} {old : PyPar → ℝ} {act : ℝ → Py Unit} {s : PyObj}
    {T : Unit → PyObj → Prop} {E : Err → PyObj → Prop} (hE : ∀ e, E e s)
    (h0 : ∀ x, v.IsReal x → a ≤ x → x ≤ b → allclose x (old s.par) → T () s)
    (h1 : ∀ x, v.IsReal x → a ≤ x → x ≤ b → ¬ allclose x (old s.par) → Ends (act x) s T E) :
    Ends (guarded v .intFloat a b old act) s T E := by
  unfold guarded
  refine Ends.check (checkParameter_ends _ _ _ _ s) hE fun x ⟨hx, ha, hb⟩ => ?_
  refine Ends.check (S := fun s' => s' = s) (m := Py.get) ⟨rfl, rfl⟩ hE fun s' hs' => ?_
  subst hs'
  split_ifs with h
  · exact h0 x (asKind_intFloat hx) ha hb h
  · exact h1 x (asKind_intFloat hx) ha hb h

end Coffe
