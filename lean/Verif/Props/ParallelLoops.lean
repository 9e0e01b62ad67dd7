import Verif.Proofs.ParallelLoops

/-!
# C22: schedule independence of the loops of the integral tables and of the covariance
-/

namespace Coffe
open Classical

/-- **C22**, in general: a loop in which no iteration writes what another one reads or writes ends, whatever the number of
threads, the assignment of iterations to them and the interleaving of their accesses, in the state of the sequential loop. -/
theorem C22_race_free_partial {κ ι : Type} (body : κ → List (Access ι)) (iters : List κ) (hn : iters.Nodup)
    (hr : RaceFree body iters) (m : Buf ι ℝ) (s : LoopState κ ι)
    (hs : runAccesses (threadAccesses body iters) (LoopState.init m) = .ok s) (t : List (κ × Access ι))
    (ht : ParSchedule body iters t) : runAccesses t (LoopState.init m) = .ok s :=
  parallel_eq_sequential hn hr ht hs

/-! ## The divergent integral -/

theorem divergent_race_free (quad : (ℝ → ℝ) → ℝ → ℝ → ℝ) (P : ℝ → ℝ) (kmin kmax : ℝ) (n : ℕ) :
    RaceFree (divergent_body quad P kmin kmax) (List.range n) := by
  rintro i - j - hij c ⟨a, ha, hw⟩ ⟨b, hb, ht⟩
  have h1 : c.2 = i := by
    simp only [divergent_body, List.mem_cons, List.not_mem_nil, or_false] at ha
    rcases ha with rfl | rfl | rfl | rfl | rfl <;> first | exact hw.elim | (cases hw; rfl)
  have h2 : c.2 = j := by
    simp only [divergent_body, List.mem_cons, List.not_mem_nil, or_false] at hb
    rcases hb with rfl | rfl | rfl | rfl | rfl <;> (cases ht; rfl)
  exact hij (h1.symm.trans h2)

/-- **C22**, the tables of the divergent integral (the separations and two values for each): every schedule of the parallel
loop fills the three arrays with the values of `divergent_result` and (before its first entry is replaced)
`divergent_result0`. -/
theorem C22_divergent_partial (quad : (ℝ → ℝ) → ℝ → ℝ → ℝ) (P : ℝ → ℝ) (kmin kmax : ℝ)
    (t : List (ℕ × Access (DivArray × ℕ)))
    (ht : ParSchedule (divergent_body quad P kmin kmax) (List.range coffe_sep.length) t) :
    ∃ s, runAccesses t (LoopState.init (Buf.new fun c => c.2 < coffe_sep.length)) = .ok s ∧
      ∀ i : Fin coffe_sep.length,
        s.mem.val (.separations, i) = some ((coffe_sep[i] : ℚ) : ℝ) ∧
        s.mem.val (.result, i) = some (integrals_integrate_function quad
          (integrals_bessel_integrand P ⟨4, 0, .int, .int⟩ ((coffe_sep[i] : ℚ) : ℝ)) ⟨4, 0, .int, .int⟩
          ((coffe_sep[i] : ℚ) : ℝ) kmin kmax) ∧
        s.mem.val (.result0, i) = some (integrals_integrate_function quad
          (integrals_renormalization0_integrand P ((coffe_sep[i] : ℚ) : ℝ)) ⟨4, 0, .int, .int⟩
          ((coffe_sep[i] : ℚ) : ℝ) kmin kmax) := by
  have hrun : ∀ i (hi : i < coffe_sep.length), ∃ u : LoopState ℕ (DivArray × ℕ),
      runAccesses ((divergent_body quad P kmin kmax i).map fun a => (i, a))
        (LoopState.init (Buf.new fun c => c.2 < coffe_sep.length)) = .ok u ∧
      u.mem.val (.separations, i) = some ((coffe_sep[i] : ℚ) : ℝ) ∧
      u.mem.val (.result, i) = some (integrals_integrate_function quad
        (integrals_bessel_integrand P ⟨4, 0, .int, .int⟩ ((coffe_sep[i] : ℚ) : ℝ)) ⟨4, 0, .int, .int⟩
        ((coffe_sep[i] : ℚ) : ℝ) kmin kmax) ∧
      u.mem.val (.result0, i) = some (integrals_integrate_function quad
        (integrals_renormalization0_integrand P ((coffe_sep[i] : ℚ) : ℝ)) ⟨4, 0, .int, .int⟩
        ((coffe_sep[i] : ℚ) : ℝ) kmin kmax) := by
    intro i hi
    have e : coffe_sep.getD i 0 = coffe_sep[i] := by simp [List.getD, hi]
    generalize coffe_sep[i] = x at e
    generalize coffe_sep.length = n at hi
    simp only [divergent_body, List.map_cons, List.map_nil, runAccesses, Access.step, LoopState.init, Buf.new, Buf.store,
      Buf.load, if_pos hi, Function.update_self, e]
    simp [Function.update, hi]
  obtain ⟨s, hs, h⟩ := parallel_cells List.nodup_range (divergent_race_free quad P kmin kmax _) ht
    (s := LoopState.init (Buf.new fun c => c.2 < coffe_sep.length)) (fun i hi => by
      obtain ⟨u, hu, -⟩ := hrun i (List.mem_range.1 hi)
      exact ⟨u, hu⟩)
  refine ⟨s, hs, fun ⟨i, hi⟩ => ?_⟩
  obtain ⟨u, hu, h1, h2, h3⟩ := hrun i hi
  have hsame := (h i (List.mem_range.2 hi) u hu).2.2
  refine ⟨?_, ?_, ?_⟩
  · exact (hsame _ ⟨_, List.mem_cons_self, rfl⟩).trans h1
  · exact (hsame _ ⟨_, List.mem_cons_of_mem _ (List.mem_cons_of_mem _ List.mem_cons_self), rfl⟩).trans h2
  · exact (hsame _ ⟨_, List.mem_cons_of_mem _ (List.mem_cons_of_mem _ (List.mem_cons_of_mem _ (List.mem_cons_of_mem _
      List.mem_cons_self))), rfl⟩).trans h3

/-! ## The table of the renormalization -/

theorem collapse_cell {S m n m' n' : ℕ} (hm : m < S) (hm' : m' < S) (h : S * n + m = S * n' + m') : m = m' ∧ n = n' := by
  have hS : 0 < S := by omega
  have h1 : (S * n + m) % S = m := by rw [Nat.mul_add_mod, Nat.mod_eq_of_lt hm]
  have h2 : (S * n' + m') % S = m' := by rw [Nat.mul_add_mod, Nat.mod_eq_of_lt hm']
  have e : m = m' := by rw [← h1, h, h2]
  refine ⟨e, ?_⟩
  have : S * n = S * n' := by omega
  exact Nat.eq_of_mul_eq_mul_left hS this

theorem renormalization_race_free (quad : (ℝ → ℝ) → ℝ → ℝ → ℝ) (P : ℝ → ℝ) (kmin kmax : ℝ) :
    RaceFree (renormalization_body quad P kmin kmax) (collapse2 (renormalization_nbins + 1) (renormalization_nbins + 1)) := by
  rintro ⟨j, k⟩ hi ⟨j', k'⟩ hi' hij c ⟨a, ha, hw⟩ ⟨b, hb, ht⟩
  rw [mem_collapse2] at hi hi'
  have h1 : c = (.result2d, k * (renormalization_nbins + 1) + j) := by
    simp only [renormalization_body, List.mem_cons, List.not_mem_nil, or_false] at ha
    rcases ha with rfl | rfl | rfl <;> first | exact hw.elim | exact hw
  subst h1
  simp only [renormalization_body, List.mem_cons, List.not_mem_nil, or_false] at hb
  rcases hb with rfl | rfl | rfl
  · simp [Access.touches] at ht
  · simp [Access.touches] at ht
  · simp only [Access.touches, Prod.mk.injEq, true_and] at ht
    obtain ⟨rfl, rfl⟩ := collapse_cell (S := renormalization_nbins + 1) (n := k) (n' := k') hi.1 hi'.1 (by
      rw [Nat.mul_comm _ k, Nat.mul_comm _ k']; exact ht)
    exact hij rfl

/-- **C22**, the two-dimensional table of the divergent integral: every schedule of the collapsed parallel loops ends with
the value at the distances number `j` and `k` in cell `k * 201 + j`, and the distances unchanged. -/
theorem C22_renormalization_partial (quad : (ℝ → ℝ) → ℝ → ℝ → ℝ) (P : ℝ → ℝ) (kmin kmax chi_max : ℝ)
    (t : List ((ℕ × ℕ) × Access (RenormArray × ℕ)))
    (ht : ParSchedule (renormalization_body quad P kmin kmax) (collapse2 201 201) t) :
    ∃ s, runAccesses t (LoopState.init (renormalization_memory chi_max)) = .ok s ∧
      ∀ j k, j < 201 → k < 201 →
        s.mem.val (.chi, j) = some (renormalization_chi chi_max j) ∧
        s.mem.val (.result2d, k * 201 + j) = some (integrals_renormalization quad P (renormalization_chi chi_max j)
          (renormalization_chi chi_max k) kmin kmax) := by
  have hrun : ∀ j k, j < 201 → k < 201 → ∃ u : LoopState (ℕ × ℕ) (RenormArray × ℕ),
      runAccesses ((renormalization_body quad P kmin kmax (j, k)).map fun a => ((j, k), a))
        (LoopState.init (renormalization_memory chi_max)) = .ok u ∧
        u.mem.val (.chi, j) = some (renormalization_chi chi_max j) ∧
        u.mem.val (.result2d, k * 201 + j) = some (integrals_renormalization quad P (renormalization_chi chi_max j)
          (renormalization_chi chi_max k) kmin kmax) := by
    intro j k hj hk
    have hjk : k * 201 + j < 201 * 201 := by
      have : k * 201 ≤ 200 * 201 := Nat.mul_le_mul_right _ (by omega)
      omega
    simp only [renormalization_body, List.map_cons, List.map_nil, runAccesses, Access.step, LoopState.init,
      renormalization_memory, Buf.store, Buf.load, renormalization_nbins, Nat.reduceAdd, if_pos hj, if_pos hk, if_pos hjk,
      Function.update_self]
    simp [Function.update, hj, hk, hjk]
  obtain ⟨s, hs, h⟩ := parallel_cells (nodup_collapse2 201 201) (renormalization_race_free quad P kmin kmax) ht
    (s := LoopState.init (renormalization_memory chi_max)) (fun jk hjk => by
      obtain ⟨j, k⟩ := jk
      rw [mem_collapse2] at hjk
      obtain ⟨u, hu, -⟩ := hrun j k hjk.1 hjk.2
      exact ⟨u, hu⟩)
  refine ⟨s, hs, fun j k hj hk => ?_⟩
  obtain ⟨u, hu, h1, h2⟩ := hrun j k hj hk
  have hsame := (h (j, k) (mem_collapse2.2 ⟨hj, hk⟩) u hu).2.2
  exact ⟨(hsame _ ⟨_, List.mem_cons_self, rfl⟩).trans h1,
    (hsame _ ⟨_, List.mem_cons_of_mem _ (List.mem_cons_of_mem _ List.mem_cons_self), rfl⟩).trans h2⟩

/-! ## The covariance -/

theorem covariance_race_free (p : CovPar) (E : CovNum) (r : ℕ) (P : ℝ → ℝ) (on : Bool) (c : ℝ) (i j : ℕ) :
    RaceFree (covariance_body p E r P on c i j) (collapse2 p.sep.length p.sep.length) := by
  rintro ⟨m, n⟩ hi ⟨m', n'⟩ hi' hij d ⟨a, ha, hw⟩ ⟨b, hb, ht⟩
  rw [mem_collapse2] at hi hi'
  unfold covariance_body at ha hb
  cases on with
  | false => simp at ha
  | true =>
    simp only [if_true, List.mem_singleton] at ha hb
    subst ha; subst hb
    simp only [Access.writes] at hw
    simp only [Access.touches, hw, Prod.mk.injEq, true_and] at ht
    obtain ⟨rfl, rfl⟩ := collapse_cell hi.1 hi'.1 ht
    exact hij rfl

theorem ld_ok {α : Type} {l : List α} {i : ℕ} {v : α} (d : α) (h : ld l i = .ok v) : l.getD i d = v := by
  unfold ld at h
  cases hl : l[i]? with
  | none => simp [hl] at h
  | some w =>
    rw [hl] at h
    simp only [Except.ok.injEq] at h
    simp [List.getD, hl, h]

/-- The loops of `fill_standard` with the given schedules for the multipoles number `i`, `j`. -/
noncomputable def fill_parallel (p : CovPar) (sched : ℕ → ℕ → List ((ℕ × ℕ) × Access (ℕ × ℕ × ℕ))) (b : IBuf) : CRes IBuf :=
  cfor (upTo 0 p.multipole_values.length) (fun i => cfor (upTo i p.multipole_values.length) fun j b =>
    match runAccesses (sched i j) (LoopState.init b) with
    | .ok s => .ok s.mem
    | .error e => .error e) b

/-- **C22**, the tables of the covariance: whatever the schedules of the parallel loops, a table is the one of the
sequential loops. -/
theorem C22_covariance_partial (p : CovPar) (E : CovNum) (r : ℕ) (P : ℝ → ℝ) (on : Bool) (c : ℝ) (b w : IBuf)
    (h : fill_standard p E r P on c b = .ok w) (sched : ℕ → ℕ → List ((ℕ × ℕ) × Access (ℕ × ℕ × ℕ)))
    (hs : ∀ i j, ParSchedule (covariance_body p E r P on c i j) (collapse2 p.sep.length p.sep.length) (sched i j)) :
    fill_parallel p sched b = .ok w := by
  refine cfor_imp (fun i _ b w h => cfor_imp (fun j _ b w h => ?_) h) h
  rw [cfor_collapse2 p.sep.length p.sep.length] at h
  have hseq := run_of_cfor (covariance_body p E r P on c i j) _ (fun mn b w h loc => ?_) _ b w h fun _ => []
  · have := C22_race_free_partial _ _ (nodup_collapse2 _ _) (covariance_race_free p E r P on c i j) b _ hseq (sched i j) (hs i j)
    simp only [this]
  · cases on with
    | false =>
      simp only [Bool.false_eq_true, if_false, Except.ok.injEq] at h
      subst h
      simp [covariance_body, runAccesses]
    | true =>
      simp only [if_true] at h
      simp only [covariance_body, if_true, List.map_cons, List.map_nil, runAccesses, Access.step]
      cases h1 : ld p.multipole_values i with
      | error e => simp [h1, bind, Except.bind] at h
      | ok li =>
      cases h2 : ld p.multipole_values j with
      | error e => simp [h1, h2, bind, Except.bind] at h
      | ok lj =>
      cases h3 : ld p.sep mn.1 with
      | error e => simp [h1, h2, h3, bind, Except.bind] at h
      | ok sm =>
      cases h4 : ld p.sep mn.2 with
      | error e => simp [h1, h2, h3, h4, bind, Except.bind] at h
      | ok sn =>
      obtain ⟨d, hd, hst⟩ : ∃ d, (if p.covariance_window then p.pixelsize.getD r 0 else 0) = d ∧
          b.store (r, i * p.multipole_values.length + j, p.sep.length * mn.2 + mn.1)
            ((2 * (li : ℝ) + 1) * (2 * lj + 1) * covariance_integral E r P sm sn d d li lj / c / Real.pi) = .ok w := by
        cases hw : p.covariance_window with
        | true =>
          cases h5 : ld p.pixelsize r with
          | error e => simp [h1, h2, h3, h4, h5, hw, bind, Except.bind] at h
          | ok d =>
            simp only [h1, h2, h3, h4, h5, hw, bind, Except.bind, if_true] at h
            exact ⟨d, by simp only [if_true]; exact ld_ok 0 h5, h⟩
        | false =>
          simp only [h1, h2, h3, h4, hw, bind, Except.bind, pure, Except.pure, Bool.false_eq_true, if_false] at h
          exact ⟨0, by simp, h⟩
      rw [hd, ld_ok 0 h1, ld_ok 0 h2, ld_ok 0 h3, ld_ok 0 h4, hst]

/-- Non-vacuity: two iterations of the loop of the divergent integral on two threads, the second one finishing while the
first has only stored its separation. -/
example (quad : (ℝ → ℝ) → ℝ → ℝ → ℝ) (P : ℝ → ℝ) (kmin kmax : ℝ) :
    ParSchedule (divergent_body quad P kmin kmax) [0, 1]
      (((divergent_body quad P kmin kmax 0).map fun a => (0, a)).take 1
        ++ (divergent_body quad P kmin kmax 1).map (fun a => (1, a))
        ++ ((divergent_body quad P kmin kmax 0).map fun a => (0, a)).drop 1) := by
  refine ⟨[[0], [1]], by simp, ?_⟩
  simp only [threadAccesses, divergent_body, List.map_cons, List.map_nil, List.flatMap_cons, List.flatMap_nil,
    List.append_nil, List.take_succ_cons, List.take_zero, List.drop_succ_cons, List.drop_zero, List.cons_append,
    List.nil_append]
  refine Interleave.step [] _ _ _ _ ?_
  refine Interleave.step [_] [] _ _ _ ?_
  refine Interleave.step [_] [] _ _ _ ?_
  refine Interleave.step [_] [] _ _ _ ?_
  refine Interleave.step [_] [] _ _ _ ?_
  refine Interleave.step [_] [] _ _ _ ?_
  refine Interleave.step [] _ _ _ _ ?_
  refine Interleave.step [] _ _ _ _ ?_
  refine Interleave.step [] _ _ _ _ ?_
  refine Interleave.step [] _ _ _ _ ?_
  exact .done _ (by simp)

end Coffe
