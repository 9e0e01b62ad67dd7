import Verif.Spec.Heap
import Mathlib.Tactic.Abel

/-!
# Rules for programs over the heap

`Triple E m pre Q`: on every heap that contains the blocks `pre`, the program `m` leaves all other blocks alone and either
fails with an error in `E` or returns `a` with blocks `P` in place of `pre`, where `Q a P`.
-/

namespace Coffe.Mem

/-- Specification of a program, local to the blocks it touches. -/
def Triple {α : Type} (E : HErr → Prop) (m : HM α) (pre : Multiset ℕ) (Q : α → Multiset ℕ → Prop) : Prop :=
  ∀ (R : Multiset ℕ) (h : Heap), h.live = pre + R →
    (∃ e, E e ∧ m h = .error e) ∨ ∃ a h' P, m h = .ok (a, h') ∧ h'.live = P + R ∧ Q a P

section
variable {α β : Type} {E : HErr → Prop}

theorem Triple.pure {a : α} {pre : Multiset ℕ} {Q : α → Multiset ℕ → Prop} (h : Q a pre) :
    Triple E (Pure.pure a) pre Q := fun _ hp hl => Or.inr ⟨a, hp, pre, rfl, hl, h⟩

theorem Triple.step {m : HM α} {f : α → HM β} {pre pre0 F : Multiset ℕ} {Q0 : α → Multiset ℕ → Prop}
    {Q : β → Multiset ℕ → Prop} (hm : Triple E m pre0 Q0) (hpre : pre = pre0 + F)
    (hf : ∀ a P, Q0 a P → Triple E (f a) (P + F) Q) : Triple E (m >>= f) pre Q := by
  intro R h hl
  have hb : (m >>= f) h = (m h >>= fun p => f p.1 p.2) := rfl
  rcases hm (F + R) h (by rw [hl, hpre, add_assoc]) with ⟨e, he, hr⟩ | ⟨a, h', P, hr, hl', hq⟩
  · exact Or.inl ⟨e, he, by rw [hb, hr]; rfl⟩
  · have := hf a P hq R h' (by rw [hl', add_assoc])
    rw [hb, hr]
    exact this

theorem Triple.weaken {m : HM α} {pre : Multiset ℕ} {Q Q' : α → Multiset ℕ → Prop} (hm : Triple E m pre Q)
    (h : ∀ a P, Q a P → Q' a P) : Triple E m pre Q' := by
  intro R hp hl
  rcases hm R hp hl with ⟨e, he⟩ | ⟨a, h', P, hr, hl', hq⟩
  · exact Or.inl ⟨e, he⟩
  · exact Or.inr ⟨a, h', P, hr, hl', h a P hq⟩

theorem Triple.frame {m : HM α} {pre pre0 F : Multiset ℕ} {Q0 Q : α → Multiset ℕ → Prop}
    (hm : Triple E m pre0 Q0) (hpre : pre = pre0 + F) (h : ∀ a P, Q0 a P → Q a (P + F)) : Triple E m pre Q := by
  intro R hp hl
  rcases hm (F + R) hp (by rw [hl, hpre, add_assoc]) with he | ⟨a, h', P, hr, hl', hq⟩
  · exact Or.inl he
  · exact Or.inr ⟨a, h', P + F, hr, by rw [hl', add_assoc], h a P hq⟩

theorem Triple.mono {E' : HErr → Prop} {m : HM α} {pre : Multiset ℕ} {Q : α → Multiset ℕ → Prop} (hm : Triple E m pre Q)
    (h : ∀ e, E e → E' e) : Triple E' m pre Q := by
  intro R hp hl
  rcases hm R hp hl with ⟨e, he, hr⟩ | hr
  · exact Or.inl ⟨e, h e he, hr⟩
  · exact Or.inr hr

theorem t_malloc : Triple E malloc 0 (fun p P => p.Ok ∧ P = p.blocks) := by
  intro R h hl
  refine Or.inr ⟨_, _, {h.next}, rfl, ?_, by simp [Ptr.Ok], rfl⟩
  simp only [hl, zero_add, Multiset.singleton_add]

theorem t_malloc' : Triple E malloc 0 (fun p P => p.Ok ∧ p ≠ .null ∧ P = p.blocks) := by
  intro R h hl
  refine Or.inr ⟨_, _, {h.next}, rfl, ?_, by simp [Ptr.Ok], by simp, rfl⟩
  simp only [hl, zero_add, Multiset.singleton_add]

theorem t_free {p : Ptr} (hp : p.Ok) : Triple E (free p) p.blocks (fun _ P => P = 0) := by
  intro R h hl
  rcases p with _ | _ | a
  · exact Or.inr ⟨(), h, 0, rfl, hl, rfl⟩
  · exact absurd rfl hp
  · have hl' : h.live = a ::ₘ R := by rw [hl]; rfl
    have hm : a ∈ h.live := by rw [hl']; exact Multiset.mem_cons_self a R
    refine Or.inr ⟨(), _, 0, by simp only [free, if_pos hm]; rfl, ?_, rfl⟩
    simp only [hl', Multiset.erase_cons_head, zero_add]

theorem t_cif {c : Prop} [Decidable c] {m : HM Unit} {pre : Multiset ℕ} {Q : Unit → Multiset ℕ → Prop}
    (h1 : c → Triple E m pre Q) (h2 : ¬ c → Q () pre) : Triple E (cif c m) pre Q := by
  unfold cif
  by_cases h : c
  · rw [if_pos h]; exact h1 h
  · rw [if_neg h]; exact Triple.pure (h2 h)

theorem t_free_if {p : Ptr} (hp : p.Ok) : Triple E (free_if p) p.blocks (fun _ P => P = 0) :=
  t_cif (fun _ => t_free hp) (fun h => by rw [not_not.1 h]; rfl)

/-- `NULL` may be dereferenced, or the last element of an empty list read. -/
abbrev Soft : HErr → Prop := fun e => e = .null ∨ e = .empty

theorem t_use {p : Ptr} (hp : p.Ok) : Triple Soft (use p) p.blocks (fun _ P => P = p.blocks ∧ p ≠ .null) := by
  intro R h hl
  rcases p with _ | _ | a
  · exact Or.inl ⟨_, Or.inl rfl, rfl⟩
  · exact absurd rfl hp
  · have hm : a ∈ h.live := by rw [hl]; simp [Ptr.blocks]
    exact Or.inr ⟨(), h, _, by simp only [use, if_pos hm], hl, rfl, by simp⟩

theorem t_use' {p : Ptr} (hp : p.Ok) (h0 : p ≠ .null) : Triple E (use p) p.blocks (fun _ P => P = p.blocks) := by
  intro R h hl
  rcases p with _ | _ | a
  · exact absurd rfl h0
  · exact absurd rfl hp
  · have hm : a ∈ h.live := by rw [hl]; simp [Ptr.blocks]
    exact Or.inr ⟨(), h, _, by simp only [use, if_pos hm], hl, rfl⟩

theorem t_realloc {p : Ptr} (hp : p.Ok) :
    Triple Soft (realloc p) p.blocks (fun q P => q.Ok ∧ q ≠ .null ∧ P = q.blocks) := by
  unfold realloc
  refine (t_use hp).step (F := 0) (by simp) ?_
  rintro _ _ ⟨rfl, -⟩
  refine (t_free hp).step (F := 0) (by simp) ?_
  rintro _ _ rfl
  exact t_malloc'

theorem t_init_spline : Triple E coffe_init_spline 0 (fun s P => s.Ok ∧ P = s.blocks) := by
  unfold coffe_init_spline
  refine t_malloc.step (F := 0) (by simp) ?_
  rintro p _ ⟨hp, rfl⟩
  refine t_malloc.step (F := p.blocks) (by abel) ?_
  rintro q _ ⟨hq, rfl⟩
  exact Triple.pure ⟨⟨hp, hq⟩, add_comm _ _⟩

theorem t_init_spline2d : Triple E coffe_init_spline2d 0 (fun s P => s.Ok ∧ P = s.blocks) := by
  unfold coffe_init_spline2d
  refine t_malloc.step (F := 0) (by simp) ?_
  rintro p _ ⟨hp, rfl⟩
  refine t_malloc.step (F := p.blocks) (by abel) ?_
  rintro q _ ⟨hq, rfl⟩
  refine t_malloc.step (F := p.blocks + q.blocks) (by abel) ?_
  rintro r _ ⟨hr, rfl⟩
  exact Triple.pure ⟨⟨hp, hq, hr⟩, by unfold Spline2d.blocks; dsimp only; abel⟩

theorem t_free_spline {s : Spline} (h : s.Ok) :
    Triple E (coffe_free_spline s) s.blocks (fun s' P => s' = coffe_new_spline ∧ P = 0) := by
  unfold coffe_free_spline Spline.blocks
  refine (t_free_if h.1).step rfl ?_
  rintro _ _ rfl
  refine (t_free_if h.2).step (F := 0) (by abel) ?_
  rintro _ _ rfl
  exact Triple.pure ⟨rfl, by simp⟩

theorem t_free_spline2d {s : Spline2d} (h : s.Ok) :
    Triple E (coffe_free_spline2d s) s.blocks (fun s' P => s' = coffe_new_spline2d ∧ P = 0) := by
  unfold coffe_free_spline2d Spline2d.blocks
  refine (t_free_if h.1).step (add_assoc _ _ _) ?_
  rintro _ _ rfl
  refine (t_free_if h.2.1).step (F := s.yaccel.blocks) (by abel) ?_
  rintro _ _ rfl
  refine (t_free_if h.2.2).step (F := 0) (by abel) ?_
  rintro _ _ rfl
  exact Triple.pure ⟨rfl, by simp⟩

theorem t_interp {s : Spline} (h : s.Ok) :
    Triple Soft (coffe_interp_spline s) s.blocks (fun _ P => P = s.blocks) := by
  unfold coffe_interp_spline Spline.blocks
  refine (t_use h.1).step rfl ?_
  rintro _ _ ⟨rfl, -⟩
  refine (t_use h.2).frame (add_comm _ _) ?_
  rintro _ _ ⟨rfl, -⟩
  exact add_comm _ _

theorem t_scratch (n : ℕ) : Triple E (scratch n) 0 (fun _ P => P = 0) := by
  induction n with
  | zero => exact Triple.pure rfl
  | succ n ih =>
    unfold scratch
    refine t_malloc.step (F := 0) (by simp) ?_
    rintro p _ ⟨hp, rfl⟩
    refine ih.step (F := p.blocks) (by abel) ?_
    rintro _ _ rfl
    refine (t_free hp).frame (F := 0) (by abel) ?_
    rintro _ _ rfl
    simp

/-! ## Families -/

theorem sumOver_nil {ι : Type} (b : ι → Multiset ℕ) : sumOver [] b = 0 := rfl

theorem sumOver_cons {ι : Type} (i : ι) (l : List ι) (b : ι → Multiset ℕ) : sumOver (i :: l) b = b i + sumOver l b := by
  simp [sumOver]

theorem sumOver_append {ι : Type} (l m : List ι) (b : ι → Multiset ℕ) :
    sumOver (l ++ m) b = sumOver l b + sumOver m b := by simp [sumOver]

theorem sumOver_congr {ι : Type} {l : List ι} {b c : ι → Multiset ℕ} (h : ∀ i ∈ l, b i = c i) :
    sumOver l b = sumOver l c := by
  unfold sumOver
  rw [List.map_congr_left h]

theorem sumOver_zero {ι : Type} {l : List ι} {b : ι → Multiset ℕ} (h : ∀ i ∈ l, b i = 0) : sumOver l b = 0 := by
  induction l with
  | nil => rfl
  | cons i l ih =>
    rw [sumOver_cons, h i (by simp), ih fun j hj => h j (by simp [hj]), add_zero]

theorem blocks_null : Ptr.null.blocks = 0 := rfl
theorem blocks_new : coffe_new_spline.blocks = 0 := rfl
theorem blocks_new2d : coffe_new_spline2d.blocks = 0 := rfl
theorem ok_new : coffe_new_spline.Ok := by constructor <;> simp [coffe_new_spline, Ptr.Ok]
theorem ok_new2d : coffe_new_spline2d.Ok := by refine ⟨?_, ?_, ?_⟩ <;> simp [coffe_new_spline2d, Ptr.Ok]
theorem ok_null : Ptr.null.Ok := by simp [Ptr.Ok]

theorem t_free_splines {ι : Type} [DecidableEq ι] : ∀ (l : List ι) (_ : l.Nodup) (s : ι → Spline) (_ : ∀ i, (s i).Ok),
    Triple E (free_splines l s) (sumOver l fun i => (s i).blocks)
      (fun s' P => (s' = fun i => if i ∈ l then coffe_new_spline else s i) ∧ P = 0)
  | [], _, s, _ => Triple.pure ⟨by simp, rfl⟩
  | i :: is, hn, s, hs => by
    obtain ⟨hi, hn⟩ := List.nodup_cons.1 hn
    unfold free_splines
    refine (t_free_spline (hs i)).step (sumOver_cons _ _ _) ?_
    rintro _ _ ⟨rfl, rfl⟩
    have hs' : ∀ j, (Function.update s i coffe_new_spline j).Ok := by
      intro j
      by_cases hj : j = i
      · subst hj; simpa using ok_new
      · simpa [hj] using hs j
    have hb : sumOver is (fun j => (Function.update s i coffe_new_spline j).blocks) = sumOver is fun j => (s j).blocks :=
      sumOver_congr fun j hj => by
        rw [Function.update_of_ne (fun h : j = i => hi (h ▸ hj))]
    refine (t_free_splines is hn _ hs').frame (F := 0) (by rw [hb]; abel) ?_
    rintro _ _ ⟨rfl, rfl⟩
    refine ⟨?_, rfl⟩
    funext j
    by_cases hj : j = i
    · subst hj; simp
    · simp [hj]

theorem t_init_splines {ι : Type} [DecidableEq ι] : ∀ (l : List ι) (_ : l.Nodup) (s : ι → Spline),
    Triple E (init_splines l s) 0
      (fun s' P => P = sumOver l (fun i => (s' i).blocks) ∧ (∀ i ∈ l, (s' i).Ok) ∧ ∀ i, i ∉ l → s' i = s i)
  | [], _, s => Triple.pure ⟨rfl, by simp, by simp⟩
  | i :: is, hn, s => by
    obtain ⟨hi, hn⟩ := List.nodup_cons.1 hn
    unfold init_splines
    refine t_init_spline.step (F := 0) (by simp) ?_
    rintro n _ ⟨hok, rfl⟩
    refine (t_init_splines is hn _).frame (F := n.blocks) (by abel) ?_
    rintro s' _ ⟨rfl, h1, h2⟩
    have hsi : s' i = n := by rw [h2 i hi]; simp
    refine ⟨by rw [sumOver_cons, hsi]; abel, ?_, ?_⟩
    · intro j hj
      rcases List.mem_cons.1 hj with rfl | hj
      · rw [hsi]; exact hok
      · exact h1 j hj
    · intro j hj
      have hj1 : j ≠ i := fun h => hj (by simp [h])
      rw [h2 j fun h => hj (by simp [h]), Function.update_of_ne hj1]

/-! ## Results -/

theorem t_free_arr {r : Arr} (h : r.Ok) : Triple E (cif (r.size ≠ 0) (free r.array)) r.blocks (fun _ P => P = 0) := by
  refine t_cif (fun h0 => ?_) (fun h0 => by simp [Arr.blocks, not_not.1 h0])
  rw [Arr.blocks, if_neg h0]
  exact t_free h

theorem t_result_free {r : Arr} (h : r.Ok) : Triple E (result_free r) r.blocks (fun r' P => r' = ⟨.null, 0⟩ ∧ P = 0) := by
  unfold result_free
  refine (t_free_arr h).step (F := 0) (by simp) ?_
  rintro _ _ rfl
  exact Triple.pure ⟨rfl, by simp⟩

theorem ok_arr0 : (⟨.null, 0⟩ : Arr).Ok := by simp [Arr.Ok, Ptr.Ok]
theorem blocks_arr0 : (⟨.null, 0⟩ : Arr).blocks = 0 := rfl

/-- What becomes of a new array. -/
theorem arr_leak (p : Ptr) (n : ℕ) : ∃ L, p.blocks = (⟨p, n⟩ : Arr).blocks + L ∧ (n ≠ 0 → L = 0) := by
  by_cases h : n = 0
  · exact ⟨p.blocks, by simp [Arr.blocks, h], fun h' => absurd h h'⟩
  · exact ⟨0, by simp [Arr.blocks, h], fun _ => rfl⟩

theorem t_result_init {r : Arr} (h : r.Ok) (n : ℕ) : Triple E (result_init n r) r.blocks
    (fun r' P => r'.Ok ∧ ∃ L, P = r'.blocks + L ∧ (n ≠ 0 → L = 0)) := by
  unfold result_init
  refine (t_result_free h).step (F := 0) (by simp) ?_
  rintro _ _ ⟨rfl, rfl⟩
  refine t_malloc.step (F := 0) (by simp) ?_
  rintro p _ ⟨hp, rfl⟩
  obtain ⟨L, hL, h0⟩ := arr_leak p n
  exact Triple.pure ⟨hp, L, by rw [add_zero, hL], h0⟩

theorem t_cov_init {a b : Arr} (ha : a.Ok) (hb : b.Ok) (rq av : Bool) (n : ℕ) :
    Triple E (coffe_covariance_init rq av n a b) (a.blocks + b.blocks)
      (fun r P => r.1.Ok ∧ r.2.Ok ∧ ∃ L, P = r.1.blocks + r.2.blocks + L ∧ (n ≠ 0 → L = 0)) := by
  unfold coffe_covariance_init
  cases rq
  · exact Triple.pure ⟨ha, hb, 0, by simp, fun _ => rfl⟩
  · simp only [if_true]
    refine (t_result_free ha).step rfl ?_
    rintro _ _ ⟨rfl, rfl⟩
    refine (t_result_free hb).step (F := 0) (by abel) ?_
    rintro _ _ ⟨rfl, rfl⟩
    refine t_malloc.step (F := 0) (by simp) ?_
    rintro p _ ⟨hp, rfl⟩
    obtain ⟨L, hL, h0⟩ := arr_leak p n
    cases av
    · exact Triple.pure ⟨hp, ok_arr0, L, by dsimp only; rw [add_zero, hL, blocks_arr0, add_zero], h0⟩
    · exact Triple.pure ⟨ok_arr0, hp, L, by dsimp only; rw [add_zero, hL, blocks_arr0, zero_add], h0⟩

/-! ## Background -/

theorem bg_nodup : BgName.all.Nodup := by decide
theorem bg_mem (i : BgName) : i ∈ BgName.all := by cases i <;> decide

theorem t_background_free {bg : Background} (h : bg.Ok) : Triple E (coffe_background_free bg) bg.blocks
    (fun bg' P => bg' = ⟨false, fun _ => coffe_new_spline⟩ ∧ P = 0) := by
  unfold coffe_background_free
  by_cases hf : bg.flag = true
  · rw [if_pos hf]
    refine (t_free_splines BgName.all bg_nodup bg.splines h.1).step (F := 0) (by simp [Background.blocks]) ?_
    rintro _ _ ⟨rfl, rfl⟩
    exact Triple.pure ⟨by simp [bg_mem], by simp⟩
  · rw [if_neg hf]
    have hf' : bg.flag = false := by simpa using hf
    have hs : bg.splines = fun _ => coffe_new_spline := funext (h.2 hf')
    refine Triple.pure ⟨?_, ?_⟩
    · cases bg; simp_all
    · exact sumOver_zero fun i _ => by rw [hs]; rfl

/-! ## Integrals -/

theorem t_free_integrals {p : Ptr} (hp : p.Ok) (h0 : p ≠ .null) : ∀ (es : List Entry) (_ : ∀ e ∈ es, e.Ok),
    Triple E (free_integrals p es) (p.blocks + sumOver es Entry.blocks) (fun _ P => P = p.blocks)
  | [], _ => Triple.pure (by simp [sumOver_nil])
  | e :: es, h => by
    obtain ⟨h1, h2, h3, h4⟩ := h e (by simp)
    unfold free_integrals
    refine (t_use' hp h0).step rfl ?_
    rintro _ _ rfl
    refine (t_free_spline h1).step (F := e.renormalization_zero_separation.blocks + e.renormalization.blocks
      + e.result2d.blocks + sumOver es Entry.blocks + p.blocks) (by rw [sumOver_cons, Entry.blocks]; abel) ?_
    rintro _ _ ⟨-, rfl⟩
    refine (t_free_spline h2).step (F := e.renormalization.blocks + e.result2d.blocks + sumOver es Entry.blocks + p.blocks)
      (by abel) ?_
    rintro _ _ ⟨-, rfl⟩
    refine (t_free_spline2d h3).step (F := e.result2d.blocks + sumOver es Entry.blocks + p.blocks) (by abel) ?_
    rintro _ _ ⟨-, rfl⟩
    refine (t_free_spline2d h4).step (F := sumOver es Entry.blocks + p.blocks) (by abel) ?_
    rintro _ _ ⟨-, rfl⟩
    refine (t_free_integrals hp h0 es fun e he => h e (by simp [he])).frame (F := 0) (by abel) ?_
    rintro _ _ rfl
    simp

/-- `if (c) throw` that does not throw. -/
theorem t_guard {c : Prop} [Decidable c] {e : HErr} (hc : ¬ c) :
    Triple E (cif c (throw e)) 0 (fun _ P => P = 0) := t_cif (fun h => absurd h hc) (fun _ => rfl)

theorem ok_int0 : (⟨.null, 0, []⟩ : Integral).Ok :=
  ⟨ok_null, rfl, fun _ => rfl, by simp, by simp⟩
theorem blocks_int0 : (⟨.null, 0, []⟩ : Integral).blocks = 0 := rfl

theorem Integral.Ok.zero {I : Integral} (h : I.Ok) (h0 : I.size = 0) : I = ⟨.null, 0, []⟩ := by
  obtain ⟨a, s, e⟩ := I
  have h1 := h.null h0
  have h2 := h.size
  simp only at h0 h1 h2
  subst h0 h1
  rw [List.length_eq_zero_iff.1 h2]

theorem t_integrals_free {I : Integral} (h : I.Ok) : Triple E (coffe_integrals_free I) I.blocks
    (fun I' P => I' = ⟨.null, 0, []⟩ ∧ P = 0) := by
  unfold coffe_integrals_free
  by_cases h0 : I.size = 0
  · rw [h.zero h0, blocks_int0]
    refine (t_cif (Q := fun _ P => P = 0) (fun h' => absurd rfl h') (fun _ => rfl)).step (F := 0) (by simp) ?_
    rintro _ _ rfl
    exact Triple.pure ⟨rfl, by simp⟩
  · refine Triple.step (Q0 := fun _ P => P = 0) (F := 0) (pre0 := I.blocks) (t_cif (fun _ => ?_) (fun h' => absurd h0 h'))
      (by simp) (by rintro _ _ rfl; exact Triple.pure ⟨rfl, by simp⟩)
    refine (t_guard (by rw [h.size]; exact lt_irrefl _)).step (F := I.blocks) (by simp) ?_
    rintro _ _ rfl
    rw [zero_add, ← h.size, List.take_length]
    refine (t_free_integrals h.array (h.nonnull h0) I.entries h.entries).step (F := 0) (by simp [Integral.blocks]) ?_
    rintro _ _ rfl
    exact (t_free h.array).frame (F := 0) (by simp) (by rintro _ _ rfl; simp)

theorem sumOver_split {ι : Type} {l : List ι} {i : ι} (h : i ∈ l) (b : ι → Multiset ℕ) : ∃ F, sumOver l b = b i + F := by
  obtain ⟨x, y, rfl⟩ := List.append_of_mem h
  exact ⟨sumOver x b + sumOver y b, by rw [sumOver_append, sumOver_cons]; abel⟩

theorem t_grow {I : Integral} (h : I.Ok) : Triple Soft (grow I) I.array.blocks (fun q P => q.Ok ∧ q ≠ .null ∧ P = q.blocks) := by
  unfold grow
  by_cases h0 : I.size = 0
  · rw [if_pos h0, h.null h0]; exact t_malloc'
  · rw [if_neg h0]; exact t_realloc h.array

theorem t_renormalizable {s : Spline} (h : s.Ok) : Triple Soft (coffe_integrals_renormalizable s) s.blocks
    (fun r P => r.1.Ok ∧ r.2.Ok ∧ P = r.1.blocks + r.2.blocks + s.blocks) := by
  unfold coffe_integrals_renormalizable
  refine t_malloc.step (F := s.blocks) (by simp) ?_
  rintro x _ ⟨hx, rfl⟩
  refine t_malloc.step (F := x.blocks + s.blocks) (by abel) ?_
  rintro y _ ⟨hy, rfl⟩
  refine t_malloc.step (F := y.blocks + (x.blocks + s.blocks)) (by abel) ?_
  rintro u _ ⟨hu, rfl⟩
  refine t_malloc.step (F := u.blocks + (y.blocks + (x.blocks + s.blocks))) (by abel) ?_
  rintro v _ ⟨hv, rfl⟩
  refine (t_use h.1).step (F := v.blocks + u.blocks + y.blocks + x.blocks + s.accel.blocks)
    (by unfold Spline.blocks; abel) ?_
  rintro _ _ ⟨rfl, -⟩
  refine (t_use h.2).step (F := v.blocks + u.blocks + y.blocks + x.blocks + s.spline.blocks) (by abel) ?_
  rintro _ _ ⟨rfl, -⟩
  refine (t_free hu).step (F := v.blocks + y.blocks + x.blocks + s.blocks) (by unfold Spline.blocks; abel) ?_
  rintro _ _ rfl
  refine (t_free hv).step (F := y.blocks + x.blocks + s.blocks) (by abel) ?_
  rintro _ _ rfl
  exact Triple.pure ⟨hx, hy, by dsimp only; abel⟩

/-- The loop over redshifts: everything but the last table of separations is released; `L` is lost. -/
theorem t_nl_loop {par : Par} (hpar : ∀ i, (par.classes i).Ok) : ∀ (n i : ℕ) (_ : i + n = zSize) (p : Ptr) (_ : p.Ok)
    (F : Multiset ℕ) (_ : ∀ j, ∃ G, F = (par.classes j).blocks + G),
    Triple Soft (nl_loop par (List.range' i n) p) F
      (fun q P => q.Ok ∧ ∃ L, P = F + L + (if n = 0 then 0 else q.blocks))
  | 0, _, _, p, hp, F, _ => Triple.pure ⟨hp, 0, by simp⟩
  | n + 1, i, hi, p, hp, F, hF => by
    rw [List.range'_succ]
    unfold nl_loop
    obtain ⟨G1, hG1⟩ := hF .nonlinear
    obtain ⟨G2, hG2⟩ := hF .background
    refine (t_use (hpar .nonlinear)).step hG1 ?_
    rintro _ _ ⟨rfl, -⟩
    rw [← hG1]
    refine t_malloc.step (F := F) (by simp) ?_
    rintro k _ ⟨hk, rfl⟩
    refine t_malloc.step (F := k.blocks + F) (by simp) ?_
    rintro pk _ ⟨hpk, rfl⟩
    refine (t_use (hpar .background)).step (F := G2 + pk.blocks + k.blocks) (by rw [hG2]; abel) ?_
    rintro _ _ ⟨rfl, -⟩
    refine t_init_spline.step (F := F + pk.blocks + k.blocks) (by rw [hG2]; abel) ?_
    rintro s _ ⟨hs, rfl⟩
    refine (t_free hk).step (F := F + pk.blocks + s.blocks) (by abel) ?_
    rintro _ _ rfl
    refine (t_free hpk).step (F := F + s.blocks) (by abel) ?_
    rintro _ _ rfl
    refine (t_renormalizable hs).step (F := F) (by abel) ?_
    rintro ⟨x, y⟩ _ ⟨hx, hy, rfl⟩
    dsimp only at hx hy ⊢
    by_cases hn : n = 0
    · subst hn
      have hz : ¬ (i ≠ zSize - 1) := by omega
      refine (t_cif (Q := fun _ P => P = 0) (pre := 0) (fun h => absurd h hz) (fun _ => rfl)).step
        (F := x.blocks + y.blocks + s.blocks + F) (by simp) ?_
      rintro _ _ rfl
      refine (t_free hy).step (F := x.blocks + s.blocks + F) (by abel) ?_
      rintro _ _ rfl
      refine Triple.pure ⟨hx, s.blocks, ?_⟩
      simp only [zero_add, if_neg (Nat.succ_ne_zero 0)]
      abel
    · have hz : i ≠ zSize - 1 := by omega
      refine (t_cif (Q := fun _ P => P = 0) (pre := x.blocks) (fun _ => t_free hx) (fun h => absurd hz h)).step
        (F := y.blocks + s.blocks + F) (by abel) ?_
      rintro _ _ rfl
      refine (t_free hy).step (F := s.blocks + F) (by abel) ?_
      rintro _ _ rfl
      refine (t_nl_loop hpar n (i + 1) (by omega) x hx F hF).frame (F := s.blocks) (by abel) ?_
      rintro q _ ⟨hq, L, rfl⟩
      refine ⟨hq, L + s.blocks, ?_⟩
      rw [if_neg hn, if_neg (Nat.succ_ne_zero n)]
      abel

theorem t_nonlinear_table {par : Par} (hpar : ∀ i, (par.classes i).Ok) {p : Ptr} (hp : p.Ok)
    (F : Multiset ℕ) (hF : ∀ j, ∃ G, F = (par.classes j).blocks + G) :
    Triple Soft (nonlinear_table par p) F (fun s P => s.Ok ∧ ∃ L, P = s.blocks + L + F) := by
  unfold nonlinear_table
  refine t_malloc.step (F := F) (by simp) ?_
  rintro z _ ⟨hz, rfl⟩
  refine t_malloc.step (F := z.blocks + F) (by simp) ?_
  rintro pk _ ⟨hpk, rfl⟩
  rw [List.range_eq_range']
  refine (t_nl_loop hpar zSize 0 (by simp) p hp F hF).step (F := z.blocks + pk.blocks) (by abel) ?_
  rintro q _ ⟨hq, L, rfl⟩
  rw [if_neg (show zSize ≠ 0 by decide)]
  refine t_init_spline2d.step (F := F + L + q.blocks + (z.blocks + pk.blocks)) (by simp) ?_
  rintro s _ ⟨hs, rfl⟩
  refine (t_free hq).step (F := s.blocks + F + L + (z.blocks + pk.blocks)) (by abel) ?_
  rintro _ _ rfl
  exact Triple.pure ⟨hs, L + (z.blocks + pk.blocks), by abel⟩

/-- What the integrals read of other structures. -/
structure Reads (par : Par) (bg : Background) (F : Multiset ℕ) : Prop where
  spectrum : ∃ G, F = (par.splines .power_spectrum_norm).blocks + G
  classes : ∀ j, ∃ G, F = (par.classes j).blocks + G
  distance : ∃ G, F = (bg.splines .comoving_distance).blocks + G

theorem entry_push {I : Integral} (h : I.Ok) {p : Ptr} (hp : p.Ok) (h0 : p ≠ .null) {e : Entry} (he : e.Ok) :
    (⟨p, I.size + 1, I.entries.take I.size ++ [e]⟩ : Integral).Ok := by
  have : I.entries.take I.size = I.entries := by rw [← h.size, List.take_length]
  refine ⟨hp, by simp [h.size], by simp, fun _ => h0, ?_⟩
  intro e' he'
  rw [this] at he'
  rcases List.mem_append.1 he' with he' | he'
  · exact h.entries _ he'
  · rw [List.mem_singleton.1 he']; exact he

theorem blocks_push {I : Integral} (h : I.Ok) (p : Ptr) (e : Entry) :
    (⟨p, I.size + 1, I.entries.take I.size ++ [e]⟩ : Integral).blocks
      = p.blocks + sumOver I.entries Entry.blocks + e.blocks := by
  have : I.entries.take I.size = I.entries := by rw [← h.size, List.take_length]
  unfold Integral.blocks
  dsimp only
  rw [this, sumOver_append, sumOver_cons, sumOver_nil]
  abel

theorem t_add_integral {cfg : IntCfg} {par : Par} (hpar : par.Ok) {bg : Background} {F : Multiset ℕ} (hF : Reads par bg F)
    {I : Integral} (h : I.Ok) : Triple Soft (add_integral cfg par I) (I.blocks + F)
      (fun I' P => I'.Ok ∧ ∃ L, P = I'.blocks + L + F ∧ (cfg.nonlinear = false → L = 0)) := by
  unfold add_integral
  obtain ⟨G, hG⟩ := hF.spectrum
  refine (t_grow h).step (F := sumOver I.entries Entry.blocks + F) (by unfold Integral.blocks; abel) ?_
  rintro q _ ⟨hq, hq0, rfl⟩
  refine (t_renormalizable (hpar.splines .power_spectrum_norm)).step
    (F := q.blocks + sumOver I.entries Entry.blocks + G) (by rw [hG]; abel) ?_
  rintro ⟨x, y⟩ _ ⟨hx, hy, rfl⟩
  dsimp only at hx hy ⊢
  refine t_init_spline.step (F := x.blocks + y.blocks + q.blocks + sumOver I.entries Entry.blocks + F)
    (by rw [hG]; abel) ?_
  rintro s _ ⟨hs, rfl⟩
  refine (t_free hx).step (F := s.blocks + y.blocks + q.blocks + sumOver I.entries Entry.blocks + F) (by abel) ?_
  rintro _ _ rfl
  refine (t_free hy).step (F := s.blocks + q.blocks + sumOver I.entries Entry.blocks + F) (by abel) ?_
  rintro _ _ rfl
  by_cases hc : cfg.nonlinear = true
  · rw [cset, if_pos hc]
    refine (t_nonlinear_table hpar.classes hx F hF.classes).step (F := s.blocks + q.blocks + sumOver I.entries Entry.blocks)
      (by abel) ?_
    rintro t _ ⟨ht, L, rfl⟩
    refine Triple.pure ⟨entry_push h hq hq0 ⟨hs, ok_new, ok_new2d, ht⟩, L, ?_, by simp [hc]⟩
    rw [blocks_push h]
    simp only [Entry.blocks, coffe_integral_new, blocks_new, blocks_new2d]
    abel
  · rw [cset, if_neg hc]
    refine Triple.step (Q0 := fun t P => t = coffe_new_spline2d ∧ P = 0) (pre0 := 0) (Triple.pure ⟨rfl, rfl⟩)
      (F := s.blocks + q.blocks + sumOver I.entries Entry.blocks + F) (by abel) ?_
    rintro _ _ ⟨rfl, rfl⟩
    refine Triple.pure ⟨entry_push h hq hq0 ⟨hs, ok_new, ok_new2d, ok_new2d⟩, 0, ?_, fun _ => rfl⟩
    rw [blocks_push h]
    simp only [Entry.blocks, coffe_integral_new, blocks_new, blocks_new2d]
    abel

theorem t_add_integrals {cfg : IntCfg} {par : Par} (hpar : par.Ok) {bg : Background} {F : Multiset ℕ} (hF : Reads par bg F) :
    ∀ (n : ℕ) {I : Integral} (_ : I.Ok), Triple Soft (add_integrals cfg par n I) (I.blocks + F)
      (fun I' P => I'.Ok ∧ ∃ L, P = I'.blocks + L + F ∧ (cfg.nonlinear = false → L = 0))
  | 0, I, h => Triple.pure ⟨h, 0, by simp, fun _ => rfl⟩
  | n + 1, I, h => by
    unfold add_integrals
    refine (t_add_integral hpar hF h).step (F := 0) (by simp) ?_
    rintro I' _ ⟨h', L, rfl, hL⟩
    refine (t_add_integrals hpar hF n h').frame (F := L) (by abel) ?_
    rintro I'' _ ⟨h'', L', rfl, hL'⟩
    exact ⟨h'', L + L', by abel, fun hc => by rw [hL hc, hL' hc]; rfl⟩

theorem t_chi_max (cfg : IntCfg) {bg : Background} (h : (bg.splines .comoving_distance).Ok) :
    Triple Soft (chi_max cfg bg) (bg.splines .comoving_distance).blocks
      (fun _ P => P = (bg.splines .comoving_distance).blocks) := by
  unfold chi_max
  by_cases hc : cfg.narrow = true
  · rw [if_pos hc]
    refine t_malloc.step (F := (bg.splines .comoving_distance).blocks) (by simp) ?_
    rintro t _ ⟨ht, rfl⟩
    refine (t_interp h).step (F := t.blocks) (by abel) ?_
    rintro _ _ rfl
    exact (t_free ht).frame (F := (bg.splines .comoving_distance).blocks) (by abel) (by rintro _ _ rfl; simp)
  · rw [if_neg hc]; exact t_interp h

theorem t_add_divergent {cfg : IntCfg} {par : Par} (hpar : par.Ok) {bg : Background} (hbg : bg.Ok) {F : Multiset ℕ}
    (hF : Reads par bg F) {I : Integral} (h : I.Ok) : Triple Soft (add_divergent cfg par bg I) (I.blocks + F)
      (fun I' P => I'.Ok ∧ P = I'.blocks + F) := by
  unfold add_divergent
  obtain ⟨G, hG⟩ := hF.spectrum
  obtain ⟨G', hG'⟩ := hF.distance
  set es := sumOver I.entries Entry.blocks with hes
  refine (t_grow h).step (F := es + F) (by unfold Integral.blocks; abel) ?_
  rintro q _ ⟨hq, hq0, rfl⟩
  refine t_malloc.step (F := q.blocks + es + F) (by abel) ?_
  rintro a _ ⟨ha, rfl⟩
  refine t_malloc.step (F := a.blocks + q.blocks + es + F) (by abel) ?_
  rintro b _ ⟨hb, rfl⟩
  refine t_malloc.step (F := b.blocks + a.blocks + q.blocks + es + F) (by abel) ?_
  rintro c _ ⟨hc, rfl⟩
  refine (t_interp (hpar.splines .power_spectrum_norm)).step (F := c.blocks + b.blocks + a.blocks + q.blocks + es + G)
    (by rw [hG]; abel) ?_
  rintro _ _ rfl
  refine t_init_spline.step (F := c.blocks + b.blocks + a.blocks + q.blocks + es + F) (by rw [hG]; abel) ?_
  rintro r _ ⟨hr, rfl⟩
  refine t_init_spline.step (F := r.blocks + c.blocks + b.blocks + a.blocks + q.blocks + es + F) (by abel) ?_
  rintro r0 _ ⟨hr0, rfl⟩
  refine (t_free hb).step (F := r0.blocks + r.blocks + c.blocks + a.blocks + q.blocks + es + F) (by abel) ?_
  rintro _ _ rfl
  refine (t_free ha).step (F := r0.blocks + r.blocks + c.blocks + q.blocks + es + F) (by abel) ?_
  rintro _ _ rfl
  refine (t_free hc).step (F := r0.blocks + r.blocks + q.blocks + es + F) (by abel) ?_
  rintro _ _ rfl
  refine t_malloc.step (F := r0.blocks + r.blocks + q.blocks + es + F) (by abel) ?_
  rintro u _ ⟨hu, rfl⟩
  refine (t_chi_max cfg (hbg.1 _)).step (F := u.blocks + r0.blocks + r.blocks + q.blocks + es + G') (by rw [hG']; abel) ?_
  rintro _ _ rfl
  refine t_malloc.step (F := u.blocks + r0.blocks + r.blocks + q.blocks + es + F) (by rw [hG']; abel) ?_
  rintro v _ ⟨hv, rfl⟩
  refine (t_interp (hpar.splines .power_spectrum_norm)).step
    (F := v.blocks + u.blocks + r0.blocks + r.blocks + q.blocks + es + G) (by rw [hG]; abel) ?_
  rintro _ _ rfl
  refine t_init_spline2d.step (F := v.blocks + u.blocks + r0.blocks + r.blocks + q.blocks + es + F)
    (by rw [hG]; abel) ?_
  rintro w _ ⟨hw, rfl⟩
  refine (t_free hv).step (F := w.blocks + u.blocks + r0.blocks + r.blocks + q.blocks + es + F) (by abel) ?_
  rintro _ _ rfl
  refine (t_free hu).step (F := w.blocks + r0.blocks + r.blocks + q.blocks + es + F) (by abel) ?_
  rintro _ _ rfl
  refine Triple.pure ⟨entry_push h hq hq0 ⟨hr, hr0, hw, ok_new2d⟩, ?_⟩
  rw [blocks_push h]
  simp only [Entry.blocks, coffe_integral_new, blocks_new2d]
  rw [hes]
  abel

theorem t_cset {c : Prop} [Decidable c] {m : HM α} {a : α} {pre : Multiset ℕ} {Q : α → Multiset ℕ → Prop}
    (h1 : Triple E m pre Q) (h2 : Triple E (Pure.pure a) pre Q) : Triple E (cset c m a) pre Q := by
  unfold cset
  by_cases h : c
  · rwa [if_pos h]
  · rwa [if_neg h]

theorem t_integrals_init (cfg : IntCfg) {par : Par} (hpar : par.Ok) {bg : Background} (hbg : bg.Ok) {F : Multiset ℕ}
    (hF : Reads par bg F) {I : Integral} (h : I.Ok) : Triple Soft (coffe_integrals_init cfg par bg I) (I.blocks + F)
      (fun I' P => I'.Ok ∧ ∃ L, P = I'.blocks + L + F ∧ (cfg.nonlinear = false → L = 0)) := by
  have hid : ∀ {I : Integral}, I.Ok → Triple Soft (Pure.pure I : HM Integral) (I.blocks + F)
      (fun I' P => I'.Ok ∧ ∃ L, P = I'.blocks + L + F ∧ (cfg.nonlinear = false → L = 0)) :=
    fun h => Triple.pure ⟨h, 0, by simp, fun _ => rfl⟩
  unfold coffe_integrals_init
  refine (t_integrals_free h).step rfl ?_
  rintro _ _ ⟨rfl, rfl⟩
  refine (t_add_integrals hpar hF 8 ok_int0).step (F := 0) (by rw [blocks_int0]; abel) ?_
  rintro I1 _ ⟨h1, L1, rfl, hL1⟩
  refine (t_cset ((t_add_divergent hpar hbg hF h1).weaken (Q' := fun I' P => I'.Ok ∧ ∃ L, P = I'.blocks + L + F ∧
    (cfg.nonlinear = false → L = 0)) fun I' P hP => ⟨hP.1, 0, by simpa using hP.2, fun _ => rfl⟩) (hid h1)).step
    (F := L1) ?_ ?_
  · abel
  rintro I2 _ ⟨h2, L2, rfl, hL2⟩
  refine (t_cset (t_add_integral hpar hF h2) (hid h2)).step (F := L1 + L2) (by abel) ?_
  rintro I3 _ ⟨h3, L3, rfl, hL3⟩
  refine (t_cset (t_add_integrals hpar hF _ h3) (hid h3)).step (F := L1 + L2 + L3) (by abel) ?_
  rintro I4 _ ⟨h4, L4, rfl, hL4⟩
  refine (t_cset (t_add_integrals hpar hF _ h4) (hid h4)).frame (F := L1 + L2 + L3 + L4) (by abel) ?_
  rintro I5 _ ⟨h5, L5, rfl, hL5⟩
  exact ⟨h5, L1 + L2 + L3 + L4 + L5, by abel, fun hc => by rw [hL1 hc, hL2 hc, hL3 hc, hL4 hc, hL5 hc]; rfl⟩

end
end Coffe.Mem
