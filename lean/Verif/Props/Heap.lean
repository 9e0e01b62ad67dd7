import Verif.Proofs.HeapWorld

/-!
# C32: memory is released once, and not used afterwards; C54: it is not always released
-/

namespace Coffe.Mem

/-- The calls that only release memory. -/
def FreeOp : Op → Prop
  | .par_free | .free_power_spectrum | .bg_free | .int_free | .cf_free | .mp_free | .ramp_free | .cov_mp_free
  | .cov_ramp_free => True
  | _ => False

/-- Releasing everything, in the order of src/main.c:174-186 (and the result src/main.c forgets). -/
def freeAll : List Op :=
  [.par_free, .bg_free, .int_free, .cf_free, .mp_free, .ramp_free, .cov_mp_free, .cov_ramp_free]

/-- A world in which the parameters have been initialised, and what is live besides its blocks. -/
theorem t_execs : ∀ (ops : List Op) {w : World} (_ : w.Ok) (_ : AllowedSeq w.par.flag ops),
    Triple Soft (execs ops w) w.blocks (fun w' P => w'.Ok ∧
      (w'.par.flag = ops.foldl (fun f o => flagAfter o f) w.par.flag ∧ ((∀ o ∈ ops, Tidy o) → NoFits w.par → NoFits w'.par)) ∧
      ∃ L, P = w'.blocks + L ∧ ((∀ o ∈ ops, Tidy o) → L = 0))
  | [], w, hw, _ => Triple.pure ⟨hw, ⟨rfl, fun _ h => h⟩, 0, by simp, fun _ => rfl⟩
  | o :: os, w, hw, ha => by
    unfold execs
    refine (t_exec hw o ha.1).step (F := 0) (by simp) ?_
    rintro w1 _ ⟨hw1, ⟨hf, hn⟩, L, rfl, hL⟩
    refine (t_execs os hw1 (by rw [hf]; exact ha.2)).frame (F := L) (by abel) ?_
    rintro w2 _ ⟨hw2, ⟨hf2, hn2⟩, L2, rfl, hL2⟩
    refine ⟨hw2, ⟨by rw [hf2, hf]; rfl, fun ht h0 => ?_⟩, L2 + L, by abel, fun ht => ?_⟩
    · exact hn2 (fun o' h => ht o' (List.mem_cons_of_mem _ h)) (hn (ht o List.mem_cons_self) h0)
    · rw [hL (ht o List.mem_cons_self), hL2 fun o' h => ht o' (List.mem_cons_of_mem _ h), add_zero]

theorem start_ok {flag : Bool} {p : Par} (hp : p.Ok) : ({ World.start flag with par := p } : World).Ok :=
  ⟨hp, ⟨fun _ => ok_new, fun _ _ => rfl⟩, ok_int0, ok_arr0, ok_arr0, ok_arr0, ok_arr0, ok_arr0⟩

theorem start_blocks {flag : Bool} {p : Par} : ({ World.start flag with par := p } : World).blocks = p.blocks := by
  unfold World.blocks World.start
  dsimp only
  rw [Background.blocks, sumOver_zero (l := BgName.all) (b := fun _ => Spline.blocks ⟨.null, .null⟩) fun _ _ => blocks_new,
    blocks_int0, blocks_arr0]
  simp

/-- Everything that can be said after the defaults and any allowed calls. -/
theorem t_program (flag : Bool) (ops : List Op) (ha : AllowedSeq true ops) :
    Triple Soft (execs (.par_default :: ops) (World.start flag)) 0 (fun w' P => w'.Ok ∧
      (w'.par.flag = ops.foldl (fun f o => flagAfter o f) true ∧ ((∀ o ∈ ops, Tidy o) → NoFits w'.par)) ∧
      ∃ L, P = w'.blocks + L ∧ ((∀ o ∈ ops, Tidy o) → L = 0)) := by
  have h1 : Triple Soft (exec (World.start flag) .par_default) 0
      (fun w' P => w'.Ok ∧ P = w'.blocks ∧ w'.par.flag = true ∧ NoFits w'.par) := by
    refine (t_par_default (World.start flag).par).step (F := 0) (by simp) ?_
    rintro p _ ⟨hp, rfl, hfl, hfit⟩
    exact Triple.pure ⟨start_ok hp, by rw [start_blocks]; simp, hfl, fun i => by dsimp only; rw [hfit i]; rfl⟩
  rw [execs]
  refine h1.step (F := 0) (by simp) ?_
  rintro w _ ⟨hw, rfl, hfl, hn⟩
  refine (t_execs ops hw (by rw [hfl]; exact ha)).frame (F := 0) (by simp) ?_
  rintro w' _ ⟨hw', ⟨hf, hn'⟩, L, rfl, hL⟩
  exact ⟨hw', ⟨by rw [hf, hfl], fun ht => hn' ht hn⟩, L, by simp, hL⟩

/-- **C32 (memory safety, partial).**  Start with structures on the stack, whatever the indeterminate fields hold, on
any heap; set the defaults and then make any calls in any order — initialise, release, reload, upload, evaluate, again
and again.  No block is released twice, no released block is used, no indeterminate pointer is used, and no array of
blocks is read beyond its end.  (What can happen is a `NULL` dereference, or reading the last separation of an empty list:
using results that were never computed.)  The one restriction, `AllowedSeq`: `z_min` is not set between
releasing the parameters and setting the defaults again; see `C32_zmin_false`. -/
theorem C32_safe_partial (flag : Bool) (h : Heap) (ops : List Op) (hops : AllowedSeq true ops) (e : HErr)
    (he : execs (.par_default :: ops) (World.start flag) h = .error e) :
    e ≠ .doubleFree ∧ e ≠ .dangling ∧ e ≠ .badPointer ∧ e ≠ .oob := by
  rcases t_program flag ops hops h.live h (by simp) with ⟨e', hs, hr⟩ | ⟨a, h', P, hr, _⟩
  · rw [he, Except.error.injEq] at hr
    subst hr
    rcases hs with rfl | rfl <;> simp
  · rw [he] at hr; cases hr

theorem never_fails {α : Type} {m : HM α} {pre : Multiset ℕ} {Q : α → Multiset ℕ → Prop}
    (hm : Triple (fun _ => False) m pre Q) {h : Heap} {R : Multiset ℕ} (hl : h.live = pre + R) :
    ∃ a h', m h = .ok (a, h') := by
  rcases hm R h hl with ⟨_, hf, _⟩ | ⟨a, h', _, hr, _⟩
  · exact hf.elim
  · exact ⟨a, h', hr⟩

theorem t_exec_free {w : World} (hw : w.Ok) (o : Op) (ho : FreeOp o) :
    Triple (fun _ => False) (exec w o) w.blocks (fun _ _ => True) := by
  obtain ⟨hp, hb, hi, h1, h2, h3, h4, h5⟩ := hw
  unfold World.blocks
  cases o <;> simp only [FreeOp] at ho
  · exact (t_parameters_free hp).step (F := w.bg.blocks + w.integral.blocks + w.cf.blocks + w.mp.blocks + w.ramp.blocks
      + w.cov_mp.blocks + w.cov_ramp.blocks) (by abel) fun _ _ _ => Triple.pure trivial
  · exact (t_free_power_spectrum hp).step (F := w.bg.blocks + w.integral.blocks + w.cf.blocks + w.mp.blocks + w.ramp.blocks
      + w.cov_mp.blocks + w.cov_ramp.blocks) (by abel) fun _ _ _ => Triple.pure trivial
  · exact (t_background_free hb).step (F := w.par.blocks + w.integral.blocks + w.cf.blocks + w.mp.blocks + w.ramp.blocks
      + w.cov_mp.blocks + w.cov_ramp.blocks) (by abel) fun _ _ _ => Triple.pure trivial
  · exact (t_integrals_free hi).step (F := w.par.blocks + w.bg.blocks + w.cf.blocks + w.mp.blocks + w.ramp.blocks
      + w.cov_mp.blocks + w.cov_ramp.blocks) (by abel) fun _ _ _ => Triple.pure trivial
  · exact (t_result_free h1).step (F := w.par.blocks + w.bg.blocks + w.integral.blocks + w.mp.blocks + w.ramp.blocks
      + w.cov_mp.blocks + w.cov_ramp.blocks) (by abel) fun _ _ _ => Triple.pure trivial
  · exact (t_result_free h2).step (F := w.par.blocks + w.bg.blocks + w.integral.blocks + w.cf.blocks + w.ramp.blocks
      + w.cov_mp.blocks + w.cov_ramp.blocks) (by abel) fun _ _ _ => Triple.pure trivial
  · exact (t_result_free h3).step (F := w.par.blocks + w.bg.blocks + w.integral.blocks + w.cf.blocks + w.mp.blocks
      + w.cov_mp.blocks + w.cov_ramp.blocks) (by abel) fun _ _ _ => Triple.pure trivial
  · exact (t_result_free h4).step (F := w.par.blocks + w.bg.blocks + w.integral.blocks + w.cf.blocks + w.mp.blocks
      + w.ramp.blocks + w.cov_ramp.blocks) (by abel) fun _ _ _ => Triple.pure trivial
  · exact (t_result_free h5).step (F := w.par.blocks + w.bg.blocks + w.integral.blocks + w.cf.blocks + w.mp.blocks
      + w.ramp.blocks + w.cov_mp.blocks) (by abel) fun _ _ _ => Triple.pure trivial

/-- **C32 (releasing never fails).**  In every state that can be reached by allowed calls, every releasing function runs
through. -/
theorem C32_free_succeeds (flag : Bool) (h : Heap) (ops : List Op) (hops : AllowedSeq true ops) (w : World) (h' : Heap)
    (hr : execs (.par_default :: ops) (World.start flag) h = .ok (w, h')) (o : Op) (ho : FreeOp o) :
    ∃ w' h'', exec w o h' = .ok (w', h'') := by
  rcases t_program flag ops hops h.live h (by simp) with ⟨e', hs, hr'⟩ | ⟨a, h1, P, hr', hl, hw, _, L, rfl, _⟩
  · rw [hr] at hr'; cases hr'
  · rw [hr, Except.ok.injEq, Prod.mk.injEq] at hr'
    obtain ⟨rfl, rfl⟩ := hr'
    exact never_fails (t_exec_free hw o ho) (R := L + h.live) (by rw [hl]; abel)

theorem bind_pure_ok {α β : Type} {m : HM α} {f : α → β} {h h' : Heap} {b : β}
    (hr : (m >>= fun a => pure (f a)) h = .ok (b, h')) : ∃ a, m h = .ok (a, h') ∧ b = f a := by
  have hb : (m >>= fun a => (pure (f a) : HM β)) h = (m h >>= fun p => (pure (f p.1) : HM β) p.2) := rfl
  rw [hb] at hr
  cases hm : m h with
  | error e => rw [hm] at hr; cases hr
  | ok p =>
    rw [hm] at hr
    obtain ⟨a, h1⟩ := p
    have : (Except.ok (f a, h1) : Except HErr _) = .ok (b, h') := hr
    rw [Except.ok.injEq, Prod.mk.injEq] at this
    exact ⟨a, by rw [this.2], this.1.symm⟩

theorem bind_ok {α β : Type} {m : HM α} {f : α → HM β} {h h' : Heap} {b : β}
    (hr : (m >>= f) h = .ok (b, h')) : ∃ a h1, m h = .ok (a, h1) ∧ f a h1 = .ok (b, h') := by
  have hb : (m >>= f) h = (m h >>= fun p => f p.1 p.2) := rfl
  rw [hb] at hr
  cases hm : m h with
  | error e => rw [hm] at hr; cases hr
  | ok p => rw [hm] at hr; exact ⟨p.1, p.2, rfl, hr⟩

theorem result_free_twice {r r' : Arr} {h h' : Heap} (hr : result_free r h = .ok (r', h')) :
    result_free r' = pure r' := by
  obtain ⟨_, _, rfl⟩ := bind_pure_ok hr
  rfl

theorem parameters_free_twice {p p' : Par} {h h' : Heap} (hr : coffe_parameters_free p h = .ok (p', h')) :
    coffe_parameters_free p' = pure p' := by
  have hf : p'.flag = false := by
    unfold coffe_parameters_free at hr
    by_cases hf : p.flag = true
    · rw [if_pos hf] at hr
      obtain ⟨_, _, -, hr⟩ := bind_ok hr
      obtain ⟨_, _, -, hr⟩ := bind_ok hr
      obtain ⟨_, _, -, hr⟩ := bind_ok hr
      obtain ⟨_, _, -, hr⟩ := bind_ok hr
      obtain ⟨_, _, -, hr⟩ := bind_ok hr
      obtain ⟨_, _, -, hr⟩ := bind_ok hr
      obtain ⟨_, _, -, hr⟩ := bind_ok hr
      obtain ⟨_, _, rfl⟩ := bind_pure_ok hr
      rfl
    · rw [if_neg hf] at hr
      have : (Except.ok (p, h) : Except HErr _) = .ok (p', h') := hr
      rw [Except.ok.injEq, Prod.mk.injEq] at this
      rw [← this.1]; simpa using hf
  unfold coffe_parameters_free
  rw [if_neg (by simp [hf])]

theorem background_free_twice {b b' : Background} {h h' : Heap} (hr : coffe_background_free b h = .ok (b', h')) :
    coffe_background_free b' = pure b' := by
  have hf : b'.flag = false := by
    unfold coffe_background_free at hr
    by_cases hf : b.flag = true
    · rw [if_pos hf] at hr
      obtain ⟨_, _, rfl⟩ := bind_pure_ok hr
      rfl
    · rw [if_neg hf] at hr
      have : (Except.ok (b, h) : Except HErr _) = .ok (b', h') := hr
      rw [Except.ok.injEq, Prod.mk.injEq] at this
      rw [← this.1]; simpa using hf
  unfold coffe_background_free
  rw [if_neg (by simp [hf])]

theorem integrals_free_twice {I I' : Integral} {h h' : Heap} (hr : coffe_integrals_free I h = .ok (I', h')) :
    coffe_integrals_free I' = pure I' := by
  obtain ⟨_, _, rfl⟩ := bind_pure_ok hr
  rfl

theorem power_spectrum_free_twice {p p' : Par} {h h' : Heap} (hr : free_power_spectrum p h = .ok (p', h')) :
    free_power_spectrum p' = pure p' := by
  unfold free_power_spectrum at hr
  obtain ⟨s, _, hs, hr⟩ := bind_ok hr
  obtain ⟨a, _, ha, hr⟩ := bind_ok hr
  obtain ⟨b, hb, rfl⟩ := bind_pure_ok hr
  have h2 : ∀ {x y : Spline2d} {g g' : Heap}, coffe_free_spline2d x g = .ok (y, g') → y = ⟨.null, .null, .null⟩ := by
    intro x y g g' hx
    unfold coffe_free_spline2d at hx
    obtain ⟨_, _, -, hx⟩ := bind_ok hx
    obtain ⟨_, _, -, hx⟩ := bind_ok hx
    obtain ⟨_, _, hx⟩ := bind_pure_ok hx
    exact hx
  have h1 : ∀ {x y : Spline} {g g' : Heap}, coffe_free_spline x g = .ok (y, g') → y = ⟨.null, .null⟩ := by
    intro x y g g' hx
    unfold coffe_free_spline at hx
    obtain ⟨_, _, -, hx⟩ := bind_ok hx
    obtain ⟨_, _, hx⟩ := bind_pure_ok hx
    exact hx
  unfold free_splines at hs
  obtain ⟨s1, _, hs1, hs⟩ := bind_ok hs
  unfold free_splines at hs
  obtain ⟨s2, _, hs2, hs⟩ := bind_ok hs
  rw [h1 hs1, h1 hs2] at hs
  have hs' : s = Function.update (Function.update p.splines .power_spectrum ⟨.null, .null⟩) .power_spectrum_norm
      ⟨.null, .null⟩ := by
    unfold free_splines at hs
    have := (Except.ok.inj hs)
    exact (Prod.mk.inj this).1.symm
  have e1 : s .power_spectrum = ⟨.null, .null⟩ := by rw [hs']; simp
  have e2 : s .power_spectrum_norm = ⟨.null, .null⟩ := by rw [hs']; simp
  have u1 : Function.update s .power_spectrum ⟨.null, .null⟩ = s := by rw [← e1, Function.update_eq_self]
  have u2 : Function.update s .power_spectrum_norm ⟨.null, .null⟩ = s := by rw [← e2, Function.update_eq_self]
  have hn : coffe_free_spline ⟨.null, .null⟩ = pure ⟨.null, .null⟩ := rfl
  have hn2 : coffe_free_spline2d ⟨.null, .null, .null⟩ = pure ⟨.null, .null, .null⟩ := rfl
  rw [h2 ha, h2 hb]
  simp only [free_power_spectrum, free_splines, hn, hn2, e1, e2, u1, u2, pure_bind]

/-- **C32 (releasing twice).**  From any state whatsoever: if a releasing function has run, running it again changes
neither the structures nor the heap. -/
theorem C32_free_twice (w : World) (h : Heap) (o : Op) (ho : FreeOp o) (w' : World) (h' : Heap)
    (hr : exec w o h = .ok (w', h')) : exec w' o h' = .ok (w', h') := by
  cases o <;> simp only [FreeOp] at ho <;> obtain ⟨x, hx, rfl⟩ := bind_pure_ok hr <;> dsimp only [exec]
  · rw [parameters_free_twice hx]; rfl
  · rw [power_spectrum_free_twice hx]; rfl
  · rw [background_free_twice hx]; rfl
  · rw [integrals_free_twice hx]; rfl
  all_goals rw [result_free_twice hx]; rfl

/-! ## The memory comes back -/

theorem t_freeAll {E : HErr → Prop} {w : World} (hw : w.Ok) (hf : w.par.flag = true) (hn : NoFits w.par) :
    Triple E (execs freeAll w) w.blocks (fun _ P => P = 0) := by
  obtain ⟨hp, hb, hi, h1, h2, h3, h4, h5⟩ := hw
  unfold World.blocks freeAll
  set B := w.bg.blocks
  set C := w.integral.blocks
  set D1 := w.cf.blocks
  set D2 := w.mp.blocks
  set D3 := w.ramp.blocks
  set D4 := w.cov_mp.blocks
  set D5 := w.cov_ramp.blocks
  simp only [execs, exec, bind_assoc, pure_bind]
  refine (t_parameters_free hp).step (F := B + C + D1 + D2 + D3 + D4 + D5) (by abel) ?_
  rintro p _ ⟨_, ⟨_, _, hz⟩, rfl⟩
  rw [hz hf hn]
  refine (t_background_free hb).step (F := C + D1 + D2 + D3 + D4 + D5) (by abel) ?_
  rintro _ _ ⟨rfl, rfl⟩
  refine (t_integrals_free hi).step (F := D1 + D2 + D3 + D4 + D5) (by abel) ?_
  rintro _ _ ⟨rfl, rfl⟩
  refine (t_result_free h1).step (F := D2 + D3 + D4 + D5) (by abel) ?_
  rintro _ _ ⟨rfl, rfl⟩
  refine (t_result_free h2).step (F := D3 + D4 + D5) (by abel) ?_
  rintro _ _ ⟨rfl, rfl⟩
  refine (t_result_free h3).step (F := D4 + D5) (by abel) ?_
  rintro _ _ ⟨rfl, rfl⟩
  refine (t_result_free h4).step (F := D5) (by abel) ?_
  rintro _ _ ⟨rfl, rfl⟩
  refine (t_result_free h5).step (F := 0) (by abel) ?_
  rintro _ _ ⟨rfl, rfl⟩
  exact Triple.pure (by simp)

theorem execs_append (a b : List Op) (w : World) : execs (a ++ b) w = execs a w >>= execs b := by
  induction a generalizing w with
  | nil => simp [execs]
  | cons o os ih => simp only [List.cons_append, execs, ih, bind_assoc]

/-- **C54 (memory comes back, partial).**  Set the defaults, make any calls among the tidy ones in any order — background
without the non-local terms, integrals of the linear spectrum, results of any size but zero, uploads of a spectrum, lists
of any length but zero — and release everything: if the program gets that far, exactly the blocks in use
before are in use after.  The calls that are excluded do lose memory: `C54_false`. -/
theorem C54_released_partial (flag : Bool) (h : Heap) (ops : List Op) (hops : AllowedSeq true ops)
    (halive : ops.foldl (fun f o => flagAfter o f) true = true) (htidy : ∀ o ∈ ops, Tidy o) (w : World) (h' : Heap)
    (hr : execs (.par_default :: (ops ++ freeAll)) (World.start flag) h = .ok (w, h')) : h'.live = h.live := by
  rw [← List.cons_append, execs_append] at hr
  have ht : Triple Soft (execs (.par_default :: ops) (World.start flag) >>= execs freeAll) 0 (fun _ P => P = 0) := by
    refine (t_program flag ops hops).step (F := 0) (by simp) ?_
    rintro w _ ⟨hw, ⟨hf, hn⟩, L, rfl, hL⟩
    rw [hL htidy]
    exact (t_freeAll hw (hf.trans halive) (hn htidy)).frame (F := 0) (by simp) fun _ _ h => by rw [h]; simp
  rcases ht h.live h (by simp) with ⟨e, _, hr'⟩ | ⟨a, h1, P, hr', hl, rfl⟩
  · rw [hr] at hr'; cases hr'
  · rw [hr, Except.ok.injEq, Prod.mk.injEq] at hr'
    rw [hr'.2, hl, zero_add]

/-! ## Witnesses -/

/-- The empty heap. -/
def Heap.empty : Heap := ⟨0, 0, Multiset.nodup_zero, by simp⟩

/-- How a run ends: with an error, or with a number of blocks in use. -/
def outcome (ops : List Op) : HErr ⊕ ℕ :=
  match execs ops (World.start false) Heap.empty with
  | .error e => .inl e
  | .ok (_, h) => .inr h.live.card

/-- **C32 (false part).**  Setting `z_min` after the parameters have been released frees the released array again:
`coffe_parameters_free` (src/common.c:775-777) does not reset `zmin_len`. -/
theorem C32_zmin_false : outcome [.par_default, .par_free, .set_list .zmin 1] = .inl .doubleFree := by decide +kernel

/-- The other lists do not have this problem. -/
example : outcome [.par_default, .par_free, .set_list .zmax 1, .set_list .sep 4, .set_list .z_mean 2] = .inr 3 := by
  decide +kernel

/-- A run through the program of src/main.c: the power spectrum, the background, the integrals, a result. -/
def typical : List Op :=
  [.set_power_spectrum, .bg_init false 0, .int_init ⟨false, true, true, true, true, true, [0, 2, 4]⟩, .bg_use .D1,
    .par_use .galaxy_bias1, .cf_init 10, .mp_init 20, .cov_init true false 9, .set_list .sep 7, .cf_init 3, .bg_free,
    .bg_free, .bg_init false 0, .int_free]

/-- It meets the hypotheses of the theorems above and runs through. -/
example : AllowedSeq true typical ∧ (∀ o ∈ typical, Tidy o) ∧ typical.foldl (fun f o => flagAfter o f) true = true ∧
    outcome (.par_default :: typical) = .inr 54 ∧ outcome (.par_default :: (typical ++ freeAll)) = .inr 0 := by
  refine ⟨by simp [typical, AllowedSeq, Allowed], ?_, rfl, by decide +kernel, by decide +kernel⟩
  intro o ho
  simp only [typical, List.mem_cons, List.not_mem_nil, or_false] at ho
  rcases ho with rfl | rfl | rfl | rfl | rfl | rfl | rfl | rfl | rfl | rfl | rfl | rfl | rfl | rfl <;> simp [Tidy]

/-- Using the background before it is computed is a `NULL` dereference, not a memory error of the other kinds. -/
example : outcome [.par_default, .bg_use .D1] = .inl .null := by decide +kernel

/-- With an empty list of separations the non-local background reads the separation before the first
(`sep[sep_size - 1]`, src/background.c:109). -/
example : outcome [.par_default, .set_list .sep 0, .bg_init true 3] = .inl .empty := by decide +kernel

/-- One of the integrals with a non-linear spectrum (`add_integral`, src/integrals.c:609-769), everything released. -/
def oneIntegral : HErr ⊕ ℕ :=
  let prog : HM World := do
    let w ← execs [.par_default, .run_class true] (World.start false)
    let I ← add_integral ⟨true, false, false, false, false, true, []⟩ w.par w.integral
    execs freeAll { w with integral := I }
  match prog Heap.empty with
  | .error e => .inl e
  | .ok (_, h) => .inr h.live.card

/-- **C54 (false).**  Releasing everything at the end does not give back: the previous bias spline when a bias is set;
an array parsed over a default one; an empty list; a result of size zero; the polynomial coefficients of the non-local
terms; the previous CLASS structures when the spectrum is computed again; and the tables behind a non-linear spectrum
(202 blocks for each integral, of which there are at least eight). -/
theorem C54_false :
    outcome ([.par_default, .set_bias .galaxy_bias1] ++ freeAll) = .inr 2 ∧
    outcome ([.par_default, .parse_list .sep 3] ++ freeAll) = .inr 1 ∧
    outcome ([.par_default, .set_list .sep 0] ++ freeAll) = .inr 1 ∧
    outcome ([.par_default, .cf_init 0] ++ freeAll) = .inr 1 ∧
    outcome ([.par_default, .bg_init true 3] ++ freeAll) = .inr 8 ∧
    outcome ([.par_default, .run_class false, .run_class false] ++ freeAll) = .inr 8 ∧
    oneIntegral = .inr 202 := by
  refine ⟨?_, ?_, ?_, ?_, ?_, ?_, ?_⟩ <;> decide +kernel

/-- Without the non-linear tables and the second run nothing is lost. -/
example : outcome ([.par_default, .run_class false, .bg_init false 0,
    .int_init ⟨false, true, true, true, true, true, [0, 2]⟩] ++ freeAll) = .inr 0 := by decide +kernel

end Coffe.Mem
