import Verif.Spec.ParallelLoops
import Verif.Proofs.Parallel

/-! # Race-free parallel loops do not depend on the schedule -/

namespace Coffe
open Classical

variable {κ ι : Type}

/-! ## The accesses of one iteration -/

theorem threadAccesses_filter (body : κ → List (Access ι)) (i : κ) (is : List κ) :
    (threadAccesses body is).filter (fun p => p.1 = i) = threadAccesses body (is.filter (· = i)) := by
  induction is with
  | nil => rfl
  | cons j is ih =>
    have e : threadAccesses body (j :: is) = ((body j).map fun a => (j, a)) ++ threadAccesses body is := by
      simp [threadAccesses]
    rw [e, List.filter_append, ih]
    by_cases h : j = i
    · subst h
      rw [List.filter_eq_self.2 (by simp)]
      simp [threadAccesses]
    · rw [List.filter_eq_nil_iff.2 (by simp [h])]
      simp [h]

theorem filter_eq_of_nodup {iters : List κ} (hn : iters.Nodup) {i : κ} (hi : i ∈ iters) : iters.filter (· = i) = [i] := by
  have hnd : (iters.filter (· = i)).Nodup := hn.filter _
  have : ∀ x, x ∈ iters.filter (· = i) ↔ x ∈ [i] := by
    intro x; simp; rintro rfl; exact hi
  exact List.perm_singleton.1 ((List.perm_ext_iff_of_nodup hnd (by simp)).2 this)

theorem map_filter_flatten (g : List κ → List (κ × Access ι)) (hg : ∀ a b, g (a ++ b) = g a ++ g b) (h0 : g [] = [])
    (ls : List (List κ)) : (ls.map g).flatten = g ls.flatten := by
  induction ls with
  | nil => simp [h0]
  | cons a ls ih => simp [ih, hg]

/-- In every schedule an iteration makes its own accesses in order. -/
theorem parSchedule_filter {body : κ → List (Access ι)} {iters : List κ} (hn : iters.Nodup) {t : List (κ × Access ι)}
    (h : ParSchedule body iters t) {i : κ} (hi : i ∈ iters) :
    t.filter (fun p => p.1 = i) = (body i).map fun a => (i, a) := by
  obtain ⟨threads, hp, hi'⟩ := h
  have hf := hi'.filter fun p => p.1 = i
  rw [List.map_map] at hf
  have e0 : (List.filter (fun p : κ × Access ι => p.1 = i) ∘ threadAccesses body)
      = fun is => threadAccesses body (is.filter (· = i)) := by
    funext is; exact threadAccesses_filter body i is
  rw [e0] at hf
  have hflat : (threads.map fun is => is.filter (· = i)).flatten = [i] := by
    rw [← List.filter_flatten]
    have h1 := hp.filter (· = i)
    rw [filter_eq_of_nodup hn hi] at h1
    exact List.perm_singleton.1 h1
  have hone : ∀ us p vs, threads.map (fun is => threadAccesses body (is.filter (· = i))) = us ++ p :: vs → p ≠ [] →
      (∀ x ∈ us, x = []) ∧ ∀ x ∈ vs, x = [] := by
    intro us p vs e hne
    obtain ⟨us', r, rfl, rfl, e2⟩ := List.map_eq_append_iff.1 e
    obtain ⟨p', vs', rfl, rfl, rfl⟩ := List.map_eq_cons_iff.1 e2
    have hlen : ((us'.map fun is => is.filter (· = i)).flatten).length + (p'.filter (· = i)).length
        + ((vs'.map fun is => is.filter (· = i)).flatten).length ≤ 1 := by
      have := congrArg List.length hflat
      simp only [List.map_append, List.map_cons, List.flatten_append, List.flatten_cons, List.length_append,
        List.length_singleton] at this
      omega
    have hp' : 1 ≤ (p'.filter (· = i)).length := by
      rcases Nat.eq_zero_or_pos (p'.filter (· = i)).length with h | h
      · exact absurd (by rw [List.length_eq_zero_iff.1 h]; rfl) hne
      · exact h
    have z1 : (us'.map fun is => is.filter (· = i)).flatten = [] := List.length_eq_zero_iff.1 (by omega)
    have z2 : (vs'.map fun is => is.filter (· = i)).flatten = [] := List.length_eq_zero_iff.1 (by omega)
    constructor
    · intro x hx
      obtain ⟨is, his, rfl⟩ := List.mem_map.1 hx
      rw [List.flatten_eq_nil_iff.1 z1 _ (List.mem_map.2 ⟨is, his, rfl⟩)]; rfl
    · intro x hx
      obtain ⟨is, his, rfl⟩ := List.mem_map.1 hx
      rw [List.flatten_eq_nil_iff.1 z2 _ (List.mem_map.2 ⟨is, his, rfl⟩)]; rfl
  rw [hf.flatten_of_single hone]
  have e3 := map_filter_flatten (threadAccesses body) (by simp [threadAccesses]) (by simp [threadAccesses])
    (threads.map fun is => is.filter (· = i))
  rw [List.map_map] at e3
  refine Eq.trans e3 ?_
  rw [hflat]
  simp [threadAccesses]

/-- Every access of a schedule is an access of one of the iterations. -/
theorem parSchedule_mem {body : κ → List (Access ι)} {iters : List κ} {t : List (κ × Access ι)}
    (h : ParSchedule body iters t) : ∀ p ∈ t, p.1 ∈ iters ∧ p.2 ∈ body p.1 := by
  obtain ⟨threads, hp, hi⟩ := h
  have key : ∀ (ps : List (List (κ × Access ι))) (t : List (κ × Access ι)), Interleave ps t → ∀ x ∈ t, ∃ p ∈ ps, x ∈ p := by
    intro ps t h
    induction h with
    | done ps h => intro x hx; simp at hx
    | step ps qs a p t _ ih =>
      intro x hx
      rcases List.mem_cons.1 hx with rfl | hx
      · exact ⟨x :: p, by simp, by simp⟩
      · obtain ⟨q, hq, hxq⟩ := ih x hx
        rcases List.mem_append.1 hq with hq | hq
        · exact ⟨q, by simp [hq], hxq⟩
        · rcases List.mem_cons.1 hq with rfl | hq
          · exact ⟨a :: q, by simp, by simp [hxq]⟩
          · exact ⟨q, by simp [hq], hxq⟩
  intro x hx
  obtain ⟨p, hp', hxp⟩ := key _ _ hi x hx
  obtain ⟨is, his, rfl⟩ := List.mem_map.1 hp'
  simp only [threadAccesses, List.mem_flatMap, List.mem_map] at hxp
  obtain ⟨j, hj, a, ha, rfl⟩ := hxp
  exact ⟨hp.subset (List.mem_flatten.2 ⟨is, his, hj⟩), ha⟩

/-- The iterations in their order, in one thread. -/
theorem parSchedule_sequential (body : κ → List (Access ι)) (iters : List κ) :
    ParSchedule body iters (threadAccesses body iters) := by
  refine ⟨[iters], by simp, ?_⟩
  have : ∀ p : List (κ × Access ι), Interleave [p] p := by
    intro p
    induction p with
    | nil => exact .done _ (by simp)
    | cons a p ih => exact Interleave.step [] [] a p p ih
  exact this _

/-! ## Frames -/

/-- The two states look the same to iteration `i`. -/
def SameTo (body : κ → List (Access ι)) (i : κ) (s u : LoopState κ ι) : Prop :=
  s.loc i = u.loc i ∧ s.mem.dom = u.mem.dom ∧ ∀ c, (∃ a ∈ body i, a.touches c) → s.mem.val c = u.mem.val c

theorem SameTo.refl (body : κ → List (Access ι)) (i : κ) (s : LoopState κ ι) : SameTo body i s s := ⟨rfl, rfl, fun _ _ => rfl⟩

theorem SameTo.symm {body : κ → List (Access ι)} {i : κ} {s u : LoopState κ ι} (h : SameTo body i s u) : SameTo body i u s :=
  ⟨h.1.symm, h.2.1.symm, fun c hc => (h.2.2 c hc).symm⟩

theorem SameTo.trans {body : κ → List (Access ι)} {i : κ} {s u v : LoopState κ ι} (h : SameTo body i s u)
    (h' : SameTo body i u v) : SameTo body i s v :=
  ⟨h.1.trans h'.1, h.2.1.trans h'.2.1, fun c hc => (h.2.2 c hc).trans (h'.2.2 c hc)⟩

/-- What an access does depends only on what the iteration sees. -/
theorem step_same {body : κ → List (Access ι)} {i : κ} {s u s' : LoopState κ ι} (h : SameTo body i s u) {a : Access ι}
    (ha : a ∈ body i) (hs : a.step i s = .ok s') : ∃ u', a.step i u = .ok u' ∧ SameTo body i s' u' := by
  obtain ⟨h1, h2, h3⟩ := h
  cases a with
  | load c =>
    simp only [Access.step] at hs ⊢
    cases hl : s.mem.load c with
    | error e => simp [hl] at hs
    | ok v =>
      obtain ⟨hd, hv⟩ := Buf.load_eq.1 hl
      have hu : u.mem.load c = .ok v := Buf.load_eq.2 ⟨h2 ▸ hd, (h3 c ⟨_, ha, rfl⟩) ▸ hv⟩
      rw [hl] at hs
      simp only [Except.ok.injEq] at hs
      subst hs
      rw [hu]
      exact ⟨_, rfl, by simp [h1], h2, h3⟩
  | store c v =>
    simp only [Access.step, Buf.store] at hs ⊢
    by_cases hd : s.mem.dom c
    · rw [if_pos hd] at hs
      simp only [Except.ok.injEq] at hs
      subst hs
      rw [if_pos (h2 ▸ hd)]
      refine ⟨_, rfl, h1, h2, fun d hd' => ?_⟩
      by_cases hcd : d = c
      · subst hcd; simp [h1]
      · simp [Function.update_of_ne hcd, h3 d hd']
    · rw [if_neg hd] at hs
      simp at hs

theorem run_same {body : κ → List (Access ι)} {i : κ} (t : List (κ × Access ι)) (ht : ∀ p ∈ t, p.1 = i ∧ p.2 ∈ body i)
    {s u s' : LoopState κ ι} (h : SameTo body i s u) (hs : runAccesses t s = .ok s') :
    ∃ u', runAccesses t u = .ok u' ∧ SameTo body i s' u' := by
  induction t generalizing s u with
  | nil =>
    simp only [runAccesses, Except.ok.injEq] at hs
    subst hs
    exact ⟨u, rfl, h⟩
  | cons p t ih =>
    obtain ⟨j, a⟩ := p
    obtain ⟨rfl, ha⟩ : j = i ∧ a ∈ body i := ht (j, a) (by simp)
    simp only [runAccesses] at hs ⊢
    cases hst : a.step j s with
    | error e => simp [hst] at hs
    | ok s1 =>
      rw [hst] at hs
      obtain ⟨u1, hu1, h1⟩ := step_same h ha hst
      rw [hu1]
      exact ih (fun p hp => ht p (by simp [hp])) h1 hs

/-- An access of another iteration is invisible. -/
theorem step_other {body : κ → List (Access ι)} {i j : κ} (hij : i ≠ j) {a : Access ι}
    (hr : ∀ c, a.writes c → ¬ ∃ b ∈ body i, b.touches c) {s s' : LoopState κ ι} (hs : a.step j s = .ok s') :
    SameTo body i s s' := by
  cases a with
  | load c =>
    simp only [Access.step] at hs
    cases hl : s.mem.load c with
    | error e => simp [hl] at hs
    | ok v =>
      rw [hl] at hs
      simp only [Except.ok.injEq] at hs
      subst hs
      exact ⟨by simp [Function.update_of_ne hij], rfl, fun _ _ => rfl⟩
  | store c v =>
    simp only [Access.step, Buf.store] at hs
    by_cases hd : s.mem.dom c
    · rw [if_pos hd] at hs
      simp only [Except.ok.injEq] at hs
      subst hs
      refine ⟨rfl, rfl, fun d hd' => ?_⟩
      have : d ≠ c := fun h => hr c rfl (h ▸ hd')
      simp [Function.update_of_ne this]
    · rw [if_neg hd] at hs
      simp at hs

/-! ## A run and the runs of its iterations -/

theorem run_split {body : κ → List (Access ι)} {iters : List κ} (hr : RaceFree body iters) (t : List (κ × Access ι))
    (ht : ∀ p ∈ t, p.1 ∈ iters ∧ p.2 ∈ body p.1) {s s' : LoopState κ ι} (hs : runAccesses t s = .ok s') {i : κ}
    (hi : i ∈ iters) : ∃ u, runAccesses (t.filter fun p => p.1 = i) s = .ok u ∧ SameTo body i s' u := by
  induction t generalizing s with
  | nil =>
    simp only [runAccesses, Except.ok.injEq] at hs
    subst hs
    exact ⟨s, rfl, .refl ..⟩
  | cons p t ih =>
    obtain ⟨j, a⟩ := p
    have hja := ht (j, a) (by simp)
    simp only [runAccesses] at hs
    cases hst : a.step j s with
    | error e => simp [hst] at hs
    | ok s1 =>
      rw [hst] at hs
      obtain ⟨u, hu, hsame⟩ := ih (fun p hp => ht p (by simp [hp])) hs
      by_cases h : j = i
      · subst h
        rw [List.filter_cons_of_pos (by simp)]
        exact ⟨u, by simp only [runAccesses, hst]; exact hu, hsame⟩
      · rw [List.filter_cons_of_neg (by simpa using h)]
        have hinv := step_other (Ne.symm h) (hr j hja.1 i hi h · ⟨a, hja.2, ·⟩) hst
        obtain ⟨v, hv, hsame'⟩ := run_same _ (fun p hp => by
          obtain ⟨hp1, hp2⟩ := List.mem_filter.1 hp
          have e : p.1 = i := by simpa using hp2
          exact ⟨e, e ▸ (ht p (by simp [hp1])).2⟩) hinv.symm hu
        exact ⟨v, hv, hsame.trans hsame'⟩

theorem run_join {body : κ → List (Access ι)} {iters : List κ} (hr : RaceFree body iters) (t : List (κ × Access ι))
    (ht : ∀ p ∈ t, p.1 ∈ iters ∧ p.2 ∈ body p.1) {s : LoopState κ ι}
    (h : ∀ i ∈ iters, ∃ u, runAccesses (t.filter fun p => p.1 = i) s = .ok u) : ∃ s', runAccesses t s = .ok s' := by
  induction t generalizing s with
  | nil => exact ⟨s, rfl⟩
  | cons p t ih =>
    obtain ⟨j, a⟩ := p
    have hja := ht (j, a) (by simp)
    obtain ⟨u, hu⟩ := h j hja.1
    rw [List.filter_cons_of_pos (by simp)] at hu
    simp only [runAccesses] at hu ⊢
    cases hst : a.step j s with
    | error e => simp [hst] at hu
    | ok s1 =>
      rw [hst] at hu
      refine ih (fun p hp => ht p (by simp [hp])) fun i hi => ?_
      by_cases hji : j = i
      · subst hji; exact ⟨u, hu⟩
      · obtain ⟨v, hv⟩ := h i hi
        rw [List.filter_cons_of_neg (by simpa using hji)] at hv
        have hinv := step_other (Ne.symm hji) (hr j hja.1 i hi hji · ⟨a, hja.2, ·⟩) hst
        obtain ⟨w, hw, -⟩ := run_same _ (fun p hp => by
          obtain ⟨hp1, hp2⟩ := List.mem_filter.1 hp
          have e : p.1 = i := by simpa using hp2
          exact ⟨e, e ▸ (ht p (by simp [hp1])).2⟩) hinv hv
        exact ⟨w, hw⟩

/-- What nobody writes stays. -/
theorem run_unwritten (t : List (κ × Access ι)) {s s' : LoopState κ ι} (hs : runAccesses t s = .ok s') :
    s'.mem.dom = s.mem.dom ∧ (∀ c, (∀ p ∈ t, ¬ p.2.writes c) → s'.mem.val c = s.mem.val c) ∧
      ∀ i, (∀ p ∈ t, p.1 ≠ i) → s'.loc i = s.loc i := by
  induction t generalizing s with
  | nil =>
    simp only [runAccesses, Except.ok.injEq] at hs
    subst hs
    exact ⟨rfl, fun _ _ => rfl, fun _ _ => rfl⟩
  | cons p t ih =>
    obtain ⟨j, a⟩ := p
    simp only [runAccesses] at hs
    cases hst : a.step j s with
    | error e => simp [hst] at hs
    | ok s1 =>
      rw [hst] at hs
      obtain ⟨h1, h2, h3⟩ := ih hs
      cases a with
      | load c =>
        simp only [Access.step] at hst
        cases hl : s.mem.load c with
        | error e => simp [hl] at hst
        | ok v =>
          rw [hl] at hst
          simp only [Except.ok.injEq] at hst
          subst hst
          refine ⟨h1, fun c hc => h2 c fun p hp => hc p (by simp [hp]), fun i hi => ?_⟩
          rw [h3 i fun p hp => hi p (by simp [hp])]
          have : i ≠ j := fun h => hi (j, .load c) (by simp) h.symm
          simp [Function.update_of_ne this]
      | store c v =>
        simp only [Access.step, Buf.store] at hst
        by_cases hd : s.mem.dom c
        · rw [if_pos hd] at hst
          simp only [Except.ok.injEq] at hst
          subst hst
          refine ⟨h1, fun d hd' => ?_, fun i hi => h3 i fun p hp => hi p (by simp [hp])⟩
          rw [h2 d fun p hp => hd' p (by simp [hp])]
          have : d ≠ c := fun h => hd' (j, .store c v) (by simp) h
          simp [Function.update_of_ne this]
        · rw [if_neg hd] at hst
          simp at hst

/-- Two sequences of accesses in which every iteration does the same end in the same state. -/
theorem run_eq_of_filter {body : κ → List (Access ι)} {iters : List κ} (hr : RaceFree body iters)
    (t u : List (κ × Access ι)) (ht : ∀ p ∈ t, p.1 ∈ iters ∧ p.2 ∈ body p.1) (hu : ∀ p ∈ u, p.1 ∈ iters ∧ p.2 ∈ body p.1)
    (hf : ∀ i ∈ iters, (t.filter fun p => p.1 = i) = u.filter fun p => p.1 = i) {s s' : LoopState κ ι}
    (hs : runAccesses t s = .ok s') : runAccesses u s = .ok s' := by
  have hsplit := fun i (hi : i ∈ iters) => run_split hr t ht hs hi
  obtain ⟨s2, hs2⟩ := run_join hr u hu (s := s) fun i hi => by
    obtain ⟨v, hv, -⟩ := hsplit i hi
    exact ⟨v, by rw [← hf i hi]; exact hv⟩
  rw [hs2]
  have hsame : ∀ i ∈ iters, SameTo body i s2 s' := by
    intro i hi
    obtain ⟨v, hv, h1⟩ := hsplit i hi
    obtain ⟨w, hw, h2⟩ := run_split hr u hu hs2 hi
    rw [← hf i hi, hv] at hw
    simp only [Except.ok.injEq] at hw
    subst hw
    exact h2.trans h1.symm
  obtain ⟨d1, v1, l1⟩ := run_unwritten t hs
  obtain ⟨d2, v2, l2⟩ := run_unwritten u hs2
  have hloc : s2.loc = s'.loc := by
    funext i
    by_cases hi : i ∈ iters
    · exact (hsame i hi).1
    · rw [l1 i fun p hp h => hi (h ▸ (ht p hp).1), l2 i fun p hp h => hi (h ▸ (hu p hp).1)]
  have hval : s2.mem.val = s'.mem.val := by
    funext c
    by_cases hc : ∃ i ∈ iters, ∃ a ∈ body i, a.writes c
    · obtain ⟨i, hi, a, ha, hw⟩ := hc
      refine (hsame i hi).2.2 c ⟨a, ha, ?_⟩
      cases a with
      | load d => exact hw.elim
      | store d v => exact hw
    · have hno : ∀ q : List (κ × Access ι), (∀ p ∈ q, p.1 ∈ iters ∧ p.2 ∈ body p.1) → ∀ p ∈ q, ¬ p.2.writes c :=
        fun q hq p hp hw => hc ⟨p.1, (hq p hp).1, p.2, (hq p hp).2, hw⟩
      rw [v1 c (hno t ht), v2 c (hno u hu)]
  have hmem : s2.mem = s'.mem := Buf.ext' (d2.trans d1.symm) hval
  cases s2; cases s'
  simp only at hloc hmem
  rw [hloc, hmem]

/-- A race-free loop ends in the state of the sequential loop, whatever the schedule. -/
theorem parallel_eq_sequential {body : κ → List (Access ι)} {iters : List κ} (hn : iters.Nodup) (hr : RaceFree body iters)
    {t : List (κ × Access ι)} (ht : ParSchedule body iters t) {s s' : LoopState κ ι}
    (hs : runAccesses (threadAccesses body iters) s = .ok s') : runAccesses t s = .ok s' := by
  have h0 := parSchedule_sequential body iters
  exact run_eq_of_filter hr _ t (parSchedule_mem h0) (parSchedule_mem ht)
    (fun i hi => by rw [parSchedule_filter hn h0 hi, parSchedule_filter hn ht hi]) hs

/-- A race-free loop: if every iteration alone succeeds, the loop does, and every iteration leaves what it leaves alone. -/
theorem parallel_cells {body : κ → List (Access ι)} {iters : List κ} (hn : iters.Nodup) (hr : RaceFree body iters)
    {t : List (κ × Access ι)} (ht : ParSchedule body iters t) {s : LoopState κ ι}
    (h : ∀ i ∈ iters, ∃ u, runAccesses ((body i).map fun a => (i, a)) s = .ok u) :
    ∃ s', runAccesses t s = .ok s' ∧
      ∀ i ∈ iters, ∀ u, runAccesses ((body i).map fun a => (i, a)) s = .ok u → SameTo body i s' u := by
  obtain ⟨s', hs'⟩ := run_join hr t (parSchedule_mem ht) (s := s) fun i hi => by
    rw [parSchedule_filter hn ht hi]; exact h i hi
  refine ⟨s', hs', fun i hi u hu => ?_⟩
  obtain ⟨v, hv, hsame⟩ := run_split hr t (parSchedule_mem ht) hs' hi
  rw [parSchedule_filter hn ht hi, hu] at hv
  simp only [Except.ok.injEq] at hv
  subst hv
  exact hsame

theorem runAccesses_append (t u : List (κ × Access ι)) (s : LoopState κ ι) :
    runAccesses (t ++ u) s = match runAccesses t s with
      | .ok s' => runAccesses u s'
      | .error e => .error e := by
  induction t generalizing s with
  | nil => rfl
  | cons p t ih =>
    obtain ⟨i, a⟩ := p
    simp only [List.cons_append, runAccesses]
    cases a.step i s with
    | error e => rfl
    | ok s1 => exact ih s1

/-! ## Sequential loops -/

theorem cfor_imp {σ : Type} {is : List κ} {body body' : κ → σ → CRes σ}
    (h : ∀ i ∈ is, ∀ s s', body i s = .ok s' → body' i s = .ok s') {s w : σ} (hw : cfor is body s = .ok w) :
    cfor is body' s = .ok w := by
  induction is generalizing s with
  | nil => exact hw
  | cons i is ih =>
    simp only [cfor] at hw ⊢
    cases hb : body i s with
    | error e => simp [hb] at hw
    | ok s1 =>
      rw [hb] at hw
      rw [h i (by simp) s s1 hb]
      exact ih (fun j hj => h j (by simp [hj])) hw

/-- A sequential loop whose iterations make the accesses of `body` is the run of these accesses. -/
theorem run_of_cfor (body : κ → List (Access ι)) (g : κ → Buf ι ℝ → CRes (Buf ι ℝ))
    (hg : ∀ i b b', g i b = .ok b' → ∀ loc : κ → List ℝ, runAccesses ((body i).map fun a => (i, a)) ⟨loc, b⟩ = .ok ⟨loc, b'⟩)
    (is : List κ) (b w : Buf ι ℝ) (h : cfor is g b = .ok w) (loc : κ → List ℝ) :
    runAccesses (threadAccesses body is) ⟨loc, b⟩ = .ok ⟨loc, w⟩ := by
  induction is generalizing b with
  | nil =>
    simp only [cfor, Except.ok.injEq] at h
    subst h; rfl
  | cons i is ih =>
    have e : threadAccesses body (i :: is) = ((body i).map fun a => (i, a)) ++ threadAccesses body is := by
      simp [threadAccesses]
    rw [e, runAccesses_append]
    simp only [cfor] at h
    cases hb : g i b with
    | error e => simp [hb] at h
    | ok b' =>
      rw [hb] at h
      rw [hg i b b' hb loc]
      exact ih b' h

theorem cfor_map {κ' σ : Type} (f : κ' → κ) (is : List κ') (body : κ → σ → CRes σ) (s : σ) :
    cfor (is.map f) body s = cfor is (fun i => body (f i)) s := by
  induction is generalizing s with
  | nil => rfl
  | cons i is ih =>
    simp only [List.map_cons, cfor]
    cases body (f i) s with
    | error e => rfl
    | ok s1 => exact ih s1

theorem cfor_collapse2 {σ : Type} (n m : ℕ) (body : ℕ → ℕ → σ → CRes σ) (s : σ) :
    cfor (upTo 0 n) (fun a => cfor (upTo 0 m) (body a)) s = cfor (collapse2 n m) (fun ab => body ab.1 ab.2) s := by
  have key : ∀ (is : List ℕ) (s : σ), cfor is (fun a => cfor (List.range m) (body a)) s
      = cfor (is.flatMap fun a => (List.range m).map fun b => (a, b)) (fun ab => body ab.1 ab.2) s := by
    intro is
    induction is with
    | nil => intro s; rfl
    | cons a is ih =>
      intro s
      rw [List.flatMap_cons, cfor_append, cfor_map]
      simp only [cfor, bind, Except.bind]
      cases cfor (List.range m) (body a) s with
      | error e => rfl
      | ok s1 => exact ih s1
  have e : ∀ k, upTo 0 k = List.range k := fun k => by simp [upTo, List.range_eq_range']
  rw [e, e]
  exact key _ s

theorem mem_collapse2 {n m : ℕ} {p : ℕ × ℕ} : p ∈ collapse2 n m ↔ p.1 < n ∧ p.2 < m := by
  obtain ⟨a, b⟩ := p
  simp [collapse2]

theorem nodup_collapse2 (n m : ℕ) : (collapse2 n m).Nodup := by
  have h : collapse2 n m = (List.range n) ×ˢ (List.range m) := rfl
  rw [h]
  exact List.nodup_range.product List.nodup_range

end Coffe
