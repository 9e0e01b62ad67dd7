import Verif.Proofs.Heap

/-!
# The memory of the parameters
-/

namespace Coffe.Mem

variable {α β : Type} {E : HErr → Prop}

theorem sumOver_perm {ι : Type} {l m : List ι} (h : l.Perm m) (b : ι → Multiset ℕ) : sumOver l b = sumOver m b :=
  (h.map b).sum_eq

/-- Changing one member of a family. -/
theorem sumOver_focus {ι : Type} {l : List ι} {i : ι} (h : i ∈ l) (hn : l.Nodup) (b : ι → Multiset ℕ) :
    ∃ F, sumOver l b = b i + F ∧ ∀ b' : ι → Multiset ℕ, (∀ j, j ≠ i → b' j = b j) → sumOver l b' = b' i + F := by
  obtain ⟨x, y, rfl⟩ := List.append_of_mem h
  have hx : i ∉ x ∧ i ∉ y := by
    rw [List.nodup_append] at hn
    obtain ⟨-, h2, h3⟩ := hn
    exact ⟨fun hx => h3 i hx i (by simp) rfl, (List.nodup_cons.1 h2).1⟩
  refine ⟨sumOver x b + sumOver y b, by rw [sumOver_append, sumOver_cons]; abel, fun b' hb => ?_⟩
  rw [sumOver_append, sumOver_cons, sumOver_congr (l := x) (c := b) fun j hj => hb j fun e => hx.1 (e ▸ hj),
    sumOver_congr (l := y) (c := b) fun j hj => hb j fun e => hx.2 (e ▸ hj)]
  abel

theorem ps_nodup : ParSpline.all.Nodup := by decide
theorem ps_mem (i : ParSpline) : i ∈ ParSpline.all := by cases i <;> decide
theorem pl_nodup : ParList.all.Nodup := by decide
theorem pl_mem (i : ParList) : i ∈ ParList.all := by cases i <;> decide
theorem cl_nodup : ClassName.all.Nodup := by decide
theorem cl_mem (i : ClassName) : i ∈ ClassName.all := by cases i <;> decide
theorem pf_nodup : ParFit.all.Nodup := by decide
theorem pf_mem (i : ParFit) : i ∈ ParFit.all := by cases i <;> decide

theorem t_free_lists : ∀ (l : List ParList) (_ : l.Nodup) (s : ParList → Arr) (_ : ∀ i, (s i).Ok),
    Triple E (free_lists l s) (sumOver l fun i => (s i).blocks)
      (fun s' P => (s' = fun i => if i ∈ l then ⟨(s i).array, if i = .zmin then (s i).size else 0⟩ else s i) ∧ P = 0)
  | [], _, s, _ => Triple.pure ⟨by simp, rfl⟩
  | i :: is, hn, s, hs => by
    obtain ⟨hi, hn⟩ := List.nodup_cons.1 hn
    unfold free_lists
    refine (t_free_arr (hs i)).step (sumOver_cons _ _ _) ?_
    rintro _ _ rfl
    set v : Arr := ⟨(s i).array, if i = .zmin then (s i).size else 0⟩ with hv
    have hs' : ∀ j, (Function.update s i v j).Ok := by
      intro j
      by_cases hj : j = i
      · subst hj; simpa [hv, Arr.Ok] using hs j
      · simpa [hj] using hs j
    have hb : sumOver is (fun j => (Function.update s i v j).blocks) = sumOver is fun j => (s j).blocks :=
      sumOver_congr fun j hj => by rw [Function.update_of_ne (fun h : j = i => hi (h ▸ hj))]
    refine (t_free_lists is hn _ hs').frame (F := 0) (by rw [hb]; abel) ?_
    rintro _ _ ⟨rfl, rfl⟩
    refine ⟨?_, rfl⟩
    funext j
    by_cases hj : j = i
    · subst hj; simp [hi, hv]
    · simp [hj]

theorem t_free_ptrs : ∀ (l : List Ptr) (_ : ∀ p ∈ l, p.Ok), Triple E (free_ptrs l) (sumOver l Ptr.blocks) (fun _ P => P = 0)
  | [], _ => Triple.pure rfl
  | p :: l, h => by
    unfold free_ptrs
    refine (t_free (h p (by simp))).step (sumOver_cons _ _ _) ?_
    rintro _ _ rfl
    exact (t_free_ptrs l fun q hq => h q (by simp [hq])).frame (F := 0) (by abel) (by rintro _ _ rfl; simp)

theorem t_free_classes : ∀ (l : List ClassName) (_ : l.Nodup) (s : ClassName → Ptr) (_ : ∀ i, (s i).Ok),
    Triple E (free_classes l s) (sumOver l fun i => (s i).blocks)
      (fun s' P => (s' = fun i => if i ∈ l then .null else s i) ∧ P = 0)
  | [], _, s, _ => Triple.pure ⟨by simp, rfl⟩
  | i :: is, hn, s, hs => by
    obtain ⟨hi, hn⟩ := List.nodup_cons.1 hn
    unfold free_classes
    refine (t_free_if (hs i)).step (sumOver_cons _ _ _) ?_
    rintro _ _ rfl
    have hs' : ∀ j, (Function.update s i .null j).Ok := by
      intro j
      by_cases hj : j = i
      · subst hj; simpa using ok_null
      · simpa [hj] using hs j
    have hb : sumOver is (fun j => (Function.update s i .null j).blocks) = sumOver is fun j => (s j).blocks :=
      sumOver_congr fun j hj => by rw [Function.update_of_ne (fun h : j = i => hi (h ▸ hj))]
    refine (t_free_classes is hn _ hs').frame (F := 0) (by rw [hb]; abel) ?_
    rintro _ _ ⟨rfl, rfl⟩
    refine ⟨?_, rfl⟩
    funext j
    by_cases hj : j = i
    · subst hj; simp
    · simp [hj]

theorem t_init_classes : ∀ (l : List ClassName) (_ : l.Nodup) (s : ClassName → Ptr),
    Triple E (init_classes l s) 0
      (fun s' P => P = sumOver l (fun i => (s' i).blocks) ∧ (∀ i ∈ l, (s' i).Ok) ∧ ∀ i, i ∉ l → s' i = s i)
  | [], _, s => Triple.pure ⟨rfl, by simp, by simp⟩
  | i :: is, hn, s => by
    obtain ⟨hi, hn⟩ := List.nodup_cons.1 hn
    unfold init_classes
    refine t_malloc.step (F := 0) (by simp) ?_
    rintro n _ ⟨hok, rfl⟩
    refine (t_init_classes is hn _).frame (F := n.blocks) (by abel) ?_
    rintro s' _ ⟨rfl, h1, h2⟩
    have hsi : s' i = n := by rw [h2 i hi]; simp
    refine ⟨by rw [sumOver_cons, hsi]; abel, ?_, ?_⟩
    · intro j hj
      rcases List.mem_cons.1 hj with rfl | hj
      · rw [hsi]; exact hok
      · exact h1 j hj
    · intro j hj
      have hj1 : j ≠ i := fun h => hj (by simp [h])
      rw [h2 j fun h => hj (by simp [h]), Function.update_of_ne hj1]

theorem t_init_lists : ∀ (l : List (ParList × ℕ)) (_ : (l.map Prod.fst).Nodup) (_ : ∀ x ∈ l, x.2 ≠ 0) (s : ParList → Arr),
    Triple E (init_lists l s) 0
      (fun s' P => P = sumOver (l.map Prod.fst) (fun i => (s' i).blocks) ∧ (∀ i ∈ l.map Prod.fst, (s' i).Ok) ∧
        ∀ i, i ∉ l.map Prod.fst → s' i = s i)
  | [], _, _, s => Triple.pure ⟨rfl, by simp, by simp⟩
  | (i, m) :: is, hn, h0, s => by
    rw [List.map_cons] at hn
    obtain ⟨hi, hn⟩ := List.nodup_cons.1 hn
    unfold init_lists
    refine t_malloc.step (F := 0) (by simp) ?_
    rintro n _ ⟨hok, rfl⟩
    refine (t_init_lists is hn (fun x hx => h0 x (by simp [hx])) _).frame (F := n.blocks) (by abel) ?_
    rintro s' _ ⟨rfl, h1, h2⟩
    have hsi : s' i = ⟨n, m⟩ := by rw [h2 i hi]; simp
    have hm : m ≠ 0 := h0 (i, m) (by simp)
    refine ⟨?_, ?_, ?_⟩
    · rw [List.map_cons, sumOver_cons]
      dsimp only
      rw [hsi, Arr.blocks, if_neg hm]
      abel
    · intro j hj
      rw [List.map_cons] at hj
      rcases List.mem_cons.1 hj with rfl | hj
      · rw [hsi]; exact hok
      · exact h1 j hj
    · intro j hj
      rw [List.map_cons] at hj
      have hj1 : j ≠ i := fun h => hj (by simp [h])
      rw [h2 j fun h => hj (List.mem_cons_of_mem _ h), Function.update_of_ne hj1]

theorem t_mallocs : ∀ n : ℕ, Triple E (mallocs n) 0 (fun l P => (∀ p ∈ l, p.Ok) ∧ P = sumOver l Ptr.blocks)
  | 0 => Triple.pure ⟨by simp, rfl⟩
  | n + 1 => by
    unfold mallocs
    refine t_malloc.step (F := 0) (by simp) ?_
    rintro p _ ⟨hp, rfl⟩
    refine (t_mallocs n).step (F := p.blocks) (by abel) ?_
    rintro l _ ⟨hl, rfl⟩
    refine Triple.pure ⟨?_, by rw [sumOver_cons]; abel⟩
    intro q hq
    rcases List.mem_cons.1 hq with rfl | hq
    · exact hp
    · exact hl q hq

/-! ## Fits -/

/-- No polynomial fits have been made. -/
def NoFits (par : Par) : Prop := ∀ i, (par.fits i).blocks = 0

theorem add_zero_split {a b : Multiset ℕ} (h : a + b = 0) : a = 0 ∧ b = 0 := by
  have hc := congrArg Multiset.card h
  rw [Multiset.card_add, Multiset.card_zero] at hc
  exact ⟨Multiset.card_eq_zero.1 (by omega), Multiset.card_eq_zero.1 (by omega)⟩

/-- Flag and fits are kept. -/
def Par.Same (par' par : Par) : Prop := par'.flag = par.flag ∧ par'.fits = par.fits

theorem t_free_entries {p : Ptr} (hp : p.Ok) : ∀ (l : List Arr) (_ : l ≠ [] → p ≠ .null) (_ : ∀ e ∈ l, e.Ok),
    Triple E (free_entries p l) (p.blocks + sumOver l Arr.blocks)
      (fun l' P => P = p.blocks ∧ l'.length = l.length ∧ ∀ e ∈ l', e = ⟨.null, 0⟩)
  | [], _, _ => Triple.pure ⟨by simp [sumOver_nil], rfl, by simp⟩
  | e :: l, h0, h => by
    unfold free_entries
    refine (t_use' hp (h0 (by simp))).step rfl ?_
    rintro _ _ rfl
    refine (t_free_arr (h e (by simp))).step (F := p.blocks + sumOver l Arr.blocks) (by rw [sumOver_cons]; abel) ?_
    rintro _ _ rfl
    refine (t_free_entries hp l (fun _ => h0 (by simp)) fun q hq => h q (by simp [hq])).step (F := 0) (by abel) ?_
    rintro l' _ ⟨rfl, hlen, hl'⟩
    refine Triple.pure ⟨by simp, by simp [hlen], ?_⟩
    intro q hq
    rcases List.mem_cons.1 hq with rfl | hq
    · rfl
    · exact hl' q hq

theorem t_free_fit {f : Fit} (h : f.Ok) : Triple E (coffe_free_fit_coefficients_array f) f.blocks
    (fun f' P => f'.Ok ∧ (f.blocks = 0 → f'.blocks = 0) ∧ P = f'.blocks) := by
  unfold coffe_free_fit_coefficients_array
  refine (t_guard (not_lt.2 h.size)).step (F := f.blocks) (by simp) ?_
  rintro _ _ rfl
  have hsplit : sumOver f.entries Arr.blocks
      = sumOver (f.entries.take f.size) Arr.blocks + sumOver (f.entries.drop f.size) Arr.blocks := by
    rw [← sumOver_append, List.take_append_drop]
  refine (t_free_entries h.array (f.entries.take f.size) (fun hne => h.nonnull fun h0 => hne (by simp [h0]))
    fun e he => h.entries e (List.mem_of_mem_take he)).step (F := sumOver (f.entries.drop f.size) Arr.blocks)
    (by rw [Fit.blocks, hsplit]; abel) ?_
  rintro l _ ⟨rfl, hlen, hl⟩
  have hz : sumOver l Arr.blocks = 0 := sumOver_zero (l := l) fun e he => by rw [hl e he]; rfl
  refine Triple.pure ⟨⟨h.array, by simp, by simp, ?_⟩, ?_, ?_⟩
  · intro e he
    rcases List.mem_append.1 he with he | he
    · rw [hl e he]; exact ok_arr0
    · exact h.entries e (List.mem_of_mem_drop he)
  · intro h0
    rw [Fit.blocks, hsplit] at h0
    rw [Fit.blocks, sumOver_append, hz]
    obtain ⟨a1, a2⟩ := add_zero_split h0
    simp only [a1, (add_zero_split a2).2, add_zero]
  · rw [Fit.blocks, sumOver_append, hz]
    abel

theorem t_free_fits : ∀ (l : List ParFit) (_ : l.Nodup) (s : ParFit → Fit) (_ : ∀ i, (s i).Ok),
    Triple E (free_fits l s) (sumOver l fun i => (s i).blocks)
      (fun s' P => (∀ i, (s' i).Ok) ∧ (∀ i, i ∉ l → s' i = s i) ∧ (∀ i, (s i).blocks = 0 → (s' i).blocks = 0) ∧
        P = sumOver l fun i => (s' i).blocks)
  | [], _, s, hs => Triple.pure ⟨hs, by simp, fun _ h => h, rfl⟩
  | i :: is, hn, s, hs => by
    obtain ⟨hi, hn⟩ := List.nodup_cons.1 hn
    unfold free_fits
    refine (t_free_fit (hs i)).step (sumOver_cons _ _ _) ?_
    rintro f _ ⟨hf, hf0, rfl⟩
    have hs' : ∀ j, (Function.update s i f j).Ok := by
      intro j
      by_cases hj : j = i
      · subst hj; simpa using hf
      · simpa [hj] using hs j
    have hb : sumOver is (fun j => (Function.update s i f j).blocks) = sumOver is fun j => (s j).blocks :=
      sumOver_congr fun j hj => by rw [Function.update_of_ne (fun h : j = i => hi (h ▸ hj))]
    refine (t_free_fits is hn _ hs').frame (F := f.blocks) (by rw [hb]; abel) ?_
    rintro s' _ ⟨h1, h2, h3, rfl⟩
    have hsi : s' i = f := by rw [h2 i hi]; simp
    refine ⟨h1, ?_, ?_, by rw [sumOver_cons, hsi]; abel⟩
    · intro j hj
      have hj1 : j ≠ i := fun h => hj (by simp [h])
      rw [h2 j fun h => hj (by simp [h]), Function.update_of_ne hj1]
    · intro j hj
      by_cases hji : j = i
      · subst hji; rw [hsi]; exact hf0 hj
      · exact h3 j (by rw [Function.update_of_ne hji]; exact hj)

theorem freed_nodup : ParFit.freed.Nodup := by decide

/-! ## Parameters -/

theorem t_parameters_free {par : Par} (h : par.Ok) : Triple E (coffe_parameters_free par) par.blocks
    (fun par' P => par'.Ok ∧ (par'.flag = false ∧ (NoFits par → NoFits par') ∧ (par.flag = true → NoFits par → par'.blocks = 0)) ∧
      P = par'.blocks) := by
  unfold coffe_parameters_free
  by_cases hf : par.flag = true
  swap
  · rw [if_neg hf]; exact Triple.pure ⟨h, ⟨by simpa using hf, id, fun h => absurd h hf⟩, rfl⟩
  rw [if_pos hf]
  have hlb : sumOver ParList.all (fun i => if i = .zmin ∧ par.flag = false then 0 else (par.lists i).blocks)
      = sumOver ParList.all fun i => (par.lists i).blocks := sumOver_congr fun i _ => by simp [hf]
  have hfits : sumOver ParFit.all (fun i => (par.fits i).blocks)
      = sumOver ParFit.freed (fun i => (par.fits i).blocks)
        + ((par.fits .evolution_bias1).blocks + (par.fits .evolution_bias2).blocks) := by
    rw [show ParFit.all = ParFit.freed ++ [.evolution_bias1, .evolution_bias2] from rfl, sumOver_append, sumOver_cons,
      sumOver_cons, sumOver_nil, add_zero]
  unfold Par.blocks
  rw [hlb, hfits, if_pos hf]
  set bs := sumOver ParSpline.all fun i => (par.splines i).blocks
  set bl := sumOver ParList.all fun i => (par.lists i).blocks
  set bt := par.type_bg.blocks
  set be := sumOver par.type_bg_elems Ptr.blocks
  set bc := sumOver ClassName.all fun i => (par.classes i).blocks
  set bf := sumOver ParFit.freed fun i => (par.fits i).blocks
  set bev := (par.fits .evolution_bias1).blocks + (par.fits .evolution_bias2).blocks with hbev
  refine (t_free_splines ParSpline.all ps_nodup par.splines h.splines).step
    (F := par.power_spectrum2d.blocks + par.power_spectrum2d_norm.blocks + bl + bt + be + bc + bf + bev) (by abel) ?_
  rintro _ _ ⟨rfl, rfl⟩
  refine (t_free_spline2d h.p2).step (F := par.power_spectrum2d_norm.blocks + bl + bt + be + bc + bf + bev) (by abel) ?_
  rintro _ _ ⟨rfl, rfl⟩
  refine (t_free_spline2d h.p2n).step (F := bl + bt + be + bc + bf + bev) (by abel) ?_
  rintro _ _ ⟨rfl, rfl⟩
  refine (t_free_ptrs _ h.elems).step (F := bl + bt + bc + bf + bev) (by abel) ?_
  rintro _ _ rfl
  refine (t_free h.type_bg).step (F := bl + bc + bf + bev) (by abel) ?_
  rintro _ _ rfl
  refine (t_free_lists ParList.all pl_nodup par.lists h.lists).step (F := bc + bf + bev) (by abel) ?_
  rintro _ _ ⟨rfl, rfl⟩
  refine (t_free_classes ClassName.all cl_nodup par.classes h.classes).step (F := bf + bev) (by abel) ?_
  rintro _ _ ⟨rfl, rfl⟩
  refine (t_free_fits ParFit.freed freed_nodup par.fits h.fits).step (F := bev) (by abel) ?_
  rintro fits _ ⟨h1, h2, h3, rfl⟩
  refine Triple.pure ⟨⟨?_, ok_new2d, ok_new2d, ?_, h.type_bg, h.elems, ?_, h1⟩, ⟨rfl, fun h0 i => h3 i (h0 i), ?_⟩, ?_⟩
  · intro i; dsimp only; rw [if_pos (ps_mem i)]; exact ok_new
  · intro i; dsimp only; rw [if_pos (pl_mem i)]; exact h.lists i
  · intro i; dsimp only; rw [if_pos (cl_mem i)]; exact ok_null
  · intro _ h0
    dsimp only
    rw [sumOver_zero (l := ParSpline.all) fun i hi => by rw [if_pos hi]; rfl,
      sumOver_zero (l := ClassName.all) fun i hi => by rw [if_pos hi]; rfl,
      sumOver_zero (l := ParList.all) fun i hi => by
        rw [if_pos hi]
        by_cases hz : i = .zmin
        · simp [hz]
        · simp [hz, Arr.blocks],
      sumOver_zero (l := ParFit.all) fun i _ => h3 i (h0 i)]
    simp [blocks_new2d]
  · dsimp only
    rw [sumOver_zero (l := ParSpline.all) fun i hi => by rw [if_pos hi]; rfl,
      sumOver_zero (l := ClassName.all) fun i hi => by rw [if_pos hi]; rfl,
      sumOver_zero (l := ParList.all) fun i hi => by
        rw [if_pos hi]
        by_cases hz : i = .zmin
        · simp [hz]
        · simp [hz, Arr.blocks],
      show ParFit.all = ParFit.freed ++ [.evolution_bias1, .evolution_bias2] from rfl, sumOver_append, sumOver_cons,
      sumOver_cons, sumOver_nil, h2 .evolution_bias1 (by decide), h2 .evolution_bias2 (by decide), hbev]
    simp [blocks_new2d]

/-- The state after initialisation, whatever was there before. -/
theorem t_par_default (par : Par) : Triple E (coffe_parse_default_parameters par) 0
    (fun par' P => par'.Ok ∧ P = par'.blocks ∧ par'.flag = true ∧ ∀ i, par'.fits i = Fit.new) := by
  unfold coffe_parse_default_parameters
  refine (t_init_splines ParSpline.all ps_nodup _).step (F := 0) (by simp) ?_
  rintro s _ ⟨rfl, hs, -⟩
  refine (t_scratch 3).step (F := sumOver ParSpline.all fun i => (s i).blocks) (by simp) ?_
  rintro _ _ rfl
  refine (t_init_lists defaultLists (by decide) (by decide) par.lists).step
    (F := sumOver ParSpline.all fun i => (s i).blocks) (by simp) ?_
  rintro l _ ⟨rfl, hl, -⟩
  have hall : ∀ i, i ∈ defaultLists.map Prod.fst := by intro i; cases i <;> decide
  refine Triple.pure ⟨⟨fun i => hs i (ps_mem i), ok_new2d, ok_new2d, fun i => hl i (hall i), ok_null, by simp,
    fun _ => ok_null, fun _ => ⟨ok_null, le_rfl, fun h => absurd rfl h, by simp [Fit.new]⟩⟩, ?_, rfl, fun _ => rfl⟩
  unfold Par.blocks
  dsimp only
  rw [sumOver_perm (show (defaultLists.map Prod.fst).Perm ParList.all by decide),
    sumOver_zero (l := ClassName.all) (b := fun _ => Ptr.null.blocks) fun _ _ => rfl,
    sumOver_zero (l := ParFit.all) (b := fun _ => Fit.new.blocks) fun _ _ => rfl]
  simp [blocks_new2d, blocks_null, sumOver_nil, add_comm]

theorem ok_update {ι : Type} [DecidableEq ι] {γ : Type} {Ok : γ → Prop} {s : ι → γ} (h : ∀ i, Ok (s i)) {i : ι} {v : γ}
    (hv : Ok v) : ∀ j, Ok (Function.update s i v j) := by
  intro j
  by_cases hj : j = i
  · subst hj; simpa using hv
  · simpa [hj] using h j

/-- Replacing a list. -/
theorem par_list_focus (par : Par) (i : ParList) : ∃ F,
    par.blocks = (if i = .zmin ∧ par.flag = false then 0 else (par.lists i).blocks) + F ∧
    ∀ a : Arr, ({ par with lists := Function.update par.lists i a } : Par).blocks
      = (if i = .zmin ∧ par.flag = false then 0 else a.blocks) + F := by
  obtain ⟨F, h1, h2⟩ := sumOver_focus (pl_mem i) pl_nodup
    (fun i => if i = .zmin ∧ par.flag = false then 0 else (par.lists i).blocks)
  refine ⟨F + (sumOver ParSpline.all (fun i => (par.splines i).blocks) + par.power_spectrum2d.blocks
    + par.power_spectrum2d_norm.blocks + (if par.flag then par.type_bg.blocks + sumOver par.type_bg_elems Ptr.blocks else 0)
    + sumOver ClassName.all (fun i => (par.classes i).blocks)
    + sumOver ParFit.all (fun i => (par.fits i).blocks)), ?_, ?_⟩
  · rw [Par.blocks, h1]; abel
  · intro a
    have := h2 (fun j => if j = .zmin ∧ par.flag = false then 0 else (Function.update par.lists i a j).blocks)
      fun j hj => by rw [Function.update_of_ne hj]
    unfold Par.blocks
    dsimp only at this ⊢
    rw [this, Function.update_self]
    abel

theorem t_set_list {par : Par} (h : par.Ok) (i : ParList) (n : ℕ) (hi : i = .zmin → par.flag = true) :
    Triple E (set_list i n par) par.blocks
      (fun par' P => par'.Ok ∧ par'.Same par ∧ ∃ L, P = par'.blocks + L ∧ (n ≠ 0 → L = 0)) := by
  unfold set_list
  obtain ⟨F, h1, h2⟩ := par_list_focus par i
  have hz : ¬ (i = .zmin ∧ par.flag = false) := fun hh => by rw [hi hh.1] at hh; exact absurd hh.2 (by simp)
  simp only [if_neg hz] at h1 h2
  refine (t_free_arr (h.lists i)).step h1 ?_
  rintro _ _ rfl
  refine t_malloc.step (F := F) (by abel) ?_
  rintro p _ ⟨hp, rfl⟩
  obtain ⟨L, hL, h0⟩ := arr_leak p n
  exact Triple.pure ⟨{ h with lists := ok_update h.lists (v := ⟨p, n⟩) hp }, ⟨rfl, rfl⟩, L, by rw [h2, hL]; abel, h0⟩

theorem t_parse_list {par : Par} (h : par.Ok) (i : ParList) (n : ℕ) :
    Triple E (parse_list i n par) par.blocks (fun par' P => par'.Ok ∧ par'.Same par ∧ ∃ L, P = par'.blocks + L) := by
  unfold parse_list
  obtain ⟨F, h1, h2⟩ := par_list_focus par i
  refine t_malloc.step (F := par.blocks) (by simp) ?_
  rintro p _ ⟨hp, rfl⟩
  obtain ⟨L, hL, h0⟩ := arr_leak p n
  refine Triple.pure ⟨{ h with lists := ok_update h.lists (v := ⟨p, n⟩) hp }, ⟨rfl, rfl⟩, ?_⟩
  rw [h1, h2]
  by_cases hz : i = .zmin ∧ par.flag = false
  · exact ⟨p.blocks, by simp only [if_pos hz]; abel⟩
  · exact ⟨L + (par.lists i).blocks, by simp only [if_neg hz]; rw [hL]; abel⟩

theorem t_parse_type_bg {par : Par} (h : par.Ok) (n : ℕ) :
    Triple E (parse_type_bg n par) par.blocks (fun par' P => par'.Ok ∧ par'.Same par ∧ ∃ L, P = par'.blocks + L) := by
  unfold parse_type_bg
  refine t_malloc.step (F := par.blocks) (by simp) ?_
  rintro p _ ⟨hp, rfl⟩
  refine (t_mallocs n).step (F := p.blocks + par.blocks) (by simp) ?_
  rintro l _ ⟨hl, rfl⟩
  refine Triple.pure ⟨{ h with type_bg := hp, elems := hl }, ⟨rfl, rfl⟩, ?_⟩
  unfold Par.blocks
  dsimp only
  by_cases hf : par.flag = true
  · simp only [if_pos hf]
    exact ⟨par.type_bg.blocks + sumOver par.type_bg_elems Ptr.blocks, by abel⟩
  · simp only [if_neg hf]
    exact ⟨p.blocks + sumOver l Ptr.blocks, by abel⟩

/-- Replacing splines. -/
theorem par_splines (par : Par) (s : ParSpline → Spline) :
    ∃ F, par.blocks = sumOver ParSpline.all (fun i => (par.splines i).blocks) + F ∧
      ({ par with splines := s } : Par).blocks = sumOver ParSpline.all (fun i => (s i).blocks) + F :=
  ⟨par.power_spectrum2d.blocks + par.power_spectrum2d_norm.blocks
    + sumOver ParList.all (fun i => if i = .zmin ∧ par.flag = false then 0 else (par.lists i).blocks)
    + (if par.flag then par.type_bg.blocks + sumOver par.type_bg_elems Ptr.blocks else 0)
    + sumOver ClassName.all (fun i => (par.classes i).blocks)
    + sumOver ParFit.all (fun i => (par.fits i).blocks), by unfold Par.blocks; abel, by unfold Par.blocks; dsimp only; abel⟩

theorem t_set_bias {par : Par} (h : par.Ok) (i : ParSpline) :
    Triple E (set_bias i par) par.blocks (fun par' P => par'.Ok ∧ par'.Same par ∧ ∃ L, P = par'.blocks + L) := by
  unfold set_bias
  refine t_malloc.step (F := par.blocks) (by simp) ?_
  rintro x _ ⟨hx, rfl⟩
  refine t_malloc.step (F := x.blocks + par.blocks) (by simp) ?_
  rintro y _ ⟨hy, rfl⟩
  refine t_init_spline.step (F := y.blocks + x.blocks + par.blocks) (by abel) ?_
  rintro s _ ⟨hs, rfl⟩
  refine (t_free hx).step (F := s.blocks + y.blocks + par.blocks) (by abel) ?_
  rintro _ _ rfl
  refine (t_free hy).step (F := s.blocks + par.blocks) (by abel) ?_
  rintro _ _ rfl
  refine Triple.pure ⟨{ h with splines := ok_update h.splines hs }, ⟨rfl, rfl⟩, ?_⟩
  obtain ⟨F, h1, h2⟩ := par_splines par (Function.update par.splines i s)
  obtain ⟨G, g1, g2⟩ := sumOver_focus (ps_mem i) ps_nodup (fun i => (par.splines i).blocks)
  have := g2 (fun j => (Function.update par.splines i s j).blocks) fun j hj => by rw [Function.update_of_ne hj]
  rw [Function.update_self] at this
  exact ⟨(par.splines i).blocks, by rw [h1, h2, g1, this]; abel⟩

/-- The splines that are not the linear spectrum. -/
theorem ps_split (b : ParSpline → Multiset ℕ) : sumOver ParSpline.all b
    = sumOver [ParSpline.power_spectrum, .power_spectrum_norm] b
      + sumOver [ParSpline.galaxy_bias1, .galaxy_bias2, .galaxy_bias3, .galaxy_bias4,
    .magnification_bias1, .magnification_bias2, .evolution_bias1, .evolution_bias2] b := by
  rw [← sumOver_append]; rfl

theorem ok_freed {l : List ParSpline} {s : ParSpline → Spline} (h : ∀ i, (s i).Ok) (i : ParSpline) :
    (if i ∈ l then coffe_new_spline else s i).Ok := by
  by_cases hi : i ∈ l
  · rw [if_pos hi]; exact ok_new
  · rw [if_neg hi]; exact h i

/-- Everything but the two spectra. -/
def Par.rest (par : Par) : Multiset ℕ :=
  sumOver [ParSpline.galaxy_bias1, .galaxy_bias2, .galaxy_bias3, .galaxy_bias4,
    .magnification_bias1, .magnification_bias2, .evolution_bias1, .evolution_bias2] (fun i => (par.splines i).blocks)
    + sumOver ParList.all (fun i => if i = .zmin ∧ par.flag = false then 0 else (par.lists i).blocks)
    + (if par.flag then par.type_bg.blocks + sumOver par.type_bg_elems Ptr.blocks else 0)
    + sumOver ParFit.all (fun i => (par.fits i).blocks)

theorem par_rest (par : Par) : par.blocks = sumOver [ParSpline.power_spectrum, .power_spectrum_norm]
      (fun i => (par.splines i).blocks) + par.power_spectrum2d.blocks + par.power_spectrum2d_norm.blocks
      + sumOver ClassName.all (fun i => (par.classes i).blocks) + par.rest := by
  unfold Par.blocks Par.rest
  rw [ps_split]
  abel

theorem rest_congr (par : Par) (s : ParSpline → Spline) (a b : Spline2d) (c : ClassName → Ptr)
    (hs : ∀ i, i ∉ [ParSpline.power_spectrum, .power_spectrum_norm] → s i = par.splines i) :
    ({ par with splines := s, power_spectrum2d := a, power_spectrum2d_norm := b, classes := c } : Par).rest = par.rest := by
  unfold Par.rest
  dsimp only
  congr 3
  exact sumOver_congr fun i hi => by rw [hs i (by revert hi; cases i <;> decide)]

theorem t_free_power_spectrum {par : Par} (h : par.Ok) :
    Triple E (free_power_spectrum par) par.blocks (fun par' P => par'.Ok ∧ par'.Same par ∧ P = par'.blocks) := by
  unfold free_power_spectrum
  refine (t_free_splines [.power_spectrum, .power_spectrum_norm] (by decide) par.splines h.splines).step
    (F := par.power_spectrum2d.blocks + par.power_spectrum2d_norm.blocks
      + sumOver ClassName.all (fun i => (par.classes i).blocks) + par.rest) (by rw [par_rest]; abel) ?_
  rintro _ _ ⟨rfl, rfl⟩
  refine (t_free_spline2d h.p2).step (F := par.power_spectrum2d_norm.blocks
      + sumOver ClassName.all (fun i => (par.classes i).blocks) + par.rest) (by abel) ?_
  rintro _ _ ⟨rfl, rfl⟩
  refine (t_free_spline2d h.p2n).step (F := sumOver ClassName.all (fun i => (par.classes i).blocks) + par.rest)
    (by abel) ?_
  rintro _ _ ⟨rfl, rfl⟩
  refine Triple.pure ⟨{ h with splines := ok_freed h.splines, p2 := ok_new2d, p2n := ok_new2d }, ⟨rfl, rfl⟩, ?_⟩
  rw [par_rest]
  have hr := rest_congr par (fun i => if i ∈ [ParSpline.power_spectrum, .power_spectrum_norm] then coffe_new_spline
    else par.splines i) coffe_new_spline2d coffe_new_spline2d par.classes fun i hi => if_neg hi
  rw [hr]
  dsimp only
  rw [sumOver_zero (l := [ParSpline.power_spectrum, .power_spectrum_norm]) fun i hi => by rw [if_pos hi]; rfl]
  simp [blocks_new2d]

theorem t_set_power_spectrum {par : Par} (h : par.Ok) :
    Triple E (set_power_spectrum_linear par) par.blocks (fun par' P => par'.Ok ∧ par'.Same par ∧ P = par'.blocks) := by
  unfold set_power_spectrum_linear free_power_spectrum
  simp only [bind_assoc, pure_bind]
  refine (t_free_splines [.power_spectrum, .power_spectrum_norm] (by decide) par.splines h.splines).step
    (F := par.power_spectrum2d.blocks + par.power_spectrum2d_norm.blocks
      + sumOver ClassName.all (fun i => (par.classes i).blocks) + par.rest) (by rw [par_rest]; abel) ?_
  rintro _ _ ⟨rfl, rfl⟩
  refine (t_free_spline2d h.p2).step (F := par.power_spectrum2d_norm.blocks
      + sumOver ClassName.all (fun i => (par.classes i).blocks) + par.rest) (by abel) ?_
  rintro _ _ ⟨rfl, rfl⟩
  refine (t_free_spline2d h.p2n).step (F := sumOver ClassName.all (fun i => (par.classes i).blocks) + par.rest)
    (by abel) ?_
  rintro _ _ ⟨rfl, rfl⟩
  refine (t_scratch 4).step (F := sumOver ClassName.all (fun i => (par.classes i).blocks) + par.rest) (by abel) ?_
  rintro _ _ rfl
  refine (t_init_splines [ParSpline.power_spectrum, .power_spectrum_norm] (by decide) _).step
    (F := sumOver ClassName.all (fun i => (par.classes i).blocks) + par.rest) (by abel) ?_
  rintro s _ ⟨rfl, hs, hs'⟩
  have hs2 : ∀ i, i ∉ [ParSpline.power_spectrum, .power_spectrum_norm] → s i = par.splines i := fun i hi => by
    rw [hs' i hi, if_neg hi]
  refine Triple.pure ⟨{ h with splines := fun i => ?_, p2 := ok_new2d, p2n := ok_new2d }, ⟨rfl, rfl⟩, ?_⟩
  · by_cases hi : i ∈ [ParSpline.power_spectrum, .power_spectrum_norm]
    · exact hs i hi
    · dsimp only; rw [hs2 i hi]; exact h.splines i
  · rw [par_rest]
    have hr := rest_congr par s coffe_new_spline2d coffe_new_spline2d par.classes hs2
    rw [hr]
    dsimp only
    simp [blocks_new2d, add_assoc]

set_option maxHeartbeats 1000000 in
theorem t_run_class {par : Par} (h : par.Ok) (nl : Bool) :
    Triple E (parse_external_power_spectrum nl par) par.blocks (fun par' P => par'.Ok ∧ par'.Same par ∧ ∃ L, P = par'.blocks + L) := by
  unfold parse_external_power_spectrum
  set bc := sumOver ClassName.all (fun i => (par.classes i).blocks) with hbc
  refine (t_free_splines [.power_spectrum, .power_spectrum_norm] (by decide) par.splines h.splines).step
    (F := par.power_spectrum2d.blocks + par.power_spectrum2d_norm.blocks + bc + par.rest) (by rw [par_rest]; abel) ?_
  rintro _ _ ⟨rfl, rfl⟩
  refine (t_init_classes ClassName.all cl_nodup par.classes).step
    (F := par.power_spectrum2d.blocks + par.power_spectrum2d_norm.blocks + bc + par.rest) (by abel) ?_
  rintro c _ ⟨rfl, hc, -⟩
  set nc := sumOver ClassName.all (fun i => (c i).blocks) with hnc
  refine (t_init_splines [ParSpline.power_spectrum, .power_spectrum_norm] (by decide) _).step
    (F := nc + par.power_spectrum2d.blocks + par.power_spectrum2d_norm.blocks + bc + par.rest) (by abel) ?_
  rintro s _ ⟨rfl, hs, hs'⟩
  have hs2 : ∀ i, i ∉ [ParSpline.power_spectrum, .power_spectrum_norm] → s i = par.splines i := fun i hi => by
    rw [hs' i hi, if_neg hi]
  have hok : ∀ i, (s i).Ok := fun i => by
    by_cases hi : i ∈ [ParSpline.power_spectrum, .power_spectrum_norm]
    · exact hs i hi
    · rw [hs2 i hi]; exact h.splines i
  set bs := sumOver [ParSpline.power_spectrum, .power_spectrum_norm] (fun i => (s i).blocks) with hbs
  refine (t_scratch 7).step
    (F := bs + nc + par.power_spectrum2d.blocks + par.power_spectrum2d_norm.blocks + bc + par.rest) (by abel) ?_
  rintro _ _ rfl
  by_cases hn : nl = true
  · rw [if_pos hn]
    refine (t_free_spline2d h.p2).step (F := bs + nc + par.power_spectrum2d_norm.blocks + bc + par.rest) (by abel) ?_
    rintro _ _ ⟨-, rfl⟩
    refine (t_free_spline2d h.p2n).step (F := bs + nc + bc + par.rest) (by abel) ?_
    rintro _ _ ⟨-, rfl⟩
    refine t_init_spline2d.step (F := bs + nc + bc + par.rest) (by abel) ?_
    rintro a _ ⟨ha, rfl⟩
    refine t_init_spline2d.step (F := a.blocks + bs + nc + bc + par.rest) (by abel) ?_
    rintro b _ ⟨hb, rfl⟩
    refine (t_scratch 6).step (F := b.blocks + a.blocks + bs + nc + bc + par.rest) (by abel) ?_
    rintro _ _ rfl
    refine Triple.pure ⟨{ h with splines := hok, p2 := ha, p2n := hb, classes := fun i => hc i (cl_mem i) }, ⟨rfl, rfl⟩, bc, ?_⟩
    rw [par_rest, rest_congr par s a b c hs2]
    dsimp only
    rw [← hbs, ← hnc]
    abel
  · rw [if_neg hn]
    refine Triple.pure ⟨{ h with splines := hok, classes := fun i => hc i (cl_mem i) }, ⟨rfl, rfl⟩, bc, ?_⟩
    rw [par_rest]
    have := rest_congr par s par.power_spectrum2d par.power_spectrum2d_norm c hs2
    rw [this]
    dsimp only
    rw [← hbs, ← hnc]
    abel

end Coffe.Mem
