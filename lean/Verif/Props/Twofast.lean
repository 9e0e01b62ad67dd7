import Verif.Proofs.Twofast
import Verif.Proofs.Background
import Mathlib.Analysis.Complex.ExponentialBounds

/-!
# C37, C38, C51, C52: the FFTLog transform and the tables of integrals
-/

namespace Coffe

/-! ## The window -/

/-- C37: for ordered limits the window is defined for every argument that is not exactly an edge of the plateau; it lies
in [0, 1], is 1 on the plateau and 0 outside. -/
theorem C37_window_partial (v xmin xmax xleft xright : ℝ) (h1 : xmin ≤ xleft) (h2 : xleft ≤ xright) (h3 : xright ≤ xmax)
    (hl : v = xleft → v ≤ xmin ∨ xmax ≤ v) (hr : v = xright → v ≤ xmin ∨ xmax ≤ v) :
    ∃ w, twofast_window v xmin xmax xleft xright = .ok w ∧ 0 ≤ w ∧ w ≤ 1 ∧ (xleft < v → v < xright → w = 1) ∧
      (v ≤ xmin ∨ xmax ≤ v → w = 0) := by
  unfold twofast_window
  rw [if_pos ⟨h1, h2, h3⟩]
  by_cases hp : v > xleft ∧ v < xright ∧ v > xmin ∧ v < xmax
  · rw [if_pos hp]
    refine ⟨1, rfl, zero_le_one, le_rfl, fun _ _ => rfl, fun h => ?_⟩
    rcases h with h | h <;> linarith [hp.2.2.1, hp.2.2.2]
  rw [if_neg hp]
  by_cases ho : v ≤ xmin ∨ v ≥ xmax
  · rw [if_pos ho]
    refine ⟨0, rfl, le_rfl, zero_le_one, fun a b => ?_, fun _ => rfl⟩
    rcases ho with h | h <;> linarith
  rw [if_neg ho]
  push Not at ho
  have hpl : xleft < v → v < xright → False := fun a b => hp ⟨a, b, ho.1, ho.2⟩
  have hout : v ≤ xmin ∨ xmax ≤ v → False := fun h => by rcases h with h | h <;> linarith [ho.1, ho.2]
  by_cases hL : v < xleft ∧ v > xmin
  · rw [if_pos hL]
    have hd : 0 < xleft - xmin := by linarith
    obtain ⟨a, b⟩ := ramp_bounds (t := (v - xmin) / (xleft - xmin)) (div_nonneg (by linarith) hd.le)
      ((div_le_one hd).2 (by linarith))
    exact ⟨_, rfl, a, b, fun h h' => (hpl h h').elim, fun h => (hout h).elim⟩
  rw [if_neg hL]
  by_cases hR : v > xright ∧ v < xmax
  · rw [if_pos hR]
    have hd : 0 < xmax - xright := by linarith
    obtain ⟨a, b⟩ := ramp_bounds (t := (xmax - v) / (xmax - xright)) (div_nonneg (by linarith) hd.le)
      ((div_le_one hd).2 (by linarith))
    exact ⟨_, rfl, a, b, fun h h' => (hpl h h').elim, fun h => (hout h).elim⟩
  exfalso
  have e1 : xleft ≤ v := not_lt.1 fun h => hL ⟨h, ho.1⟩
  have e2 : v ≤ xright := not_lt.1 fun h => hR ⟨h, ho.2⟩
  rcases e1.lt_or_eq with e1 | e1
  · rcases e2.lt_or_eq with e2 | e2
    · exact hpl e1 e2
    · exact hout (hr e2)
  · exact hout (hl e1.symm)

/-- Non-vacuity: half way up the ramp. -/
example : ∃ w, twofast_window 1.5 1 10 2 9 = .ok w ∧ 0 ≤ w ∧ w ≤ 1 := by
  obtain ⟨w, h, a, b, -⟩ := C37_window_partial 1.5 1 10 2 9 (by norm_num) (by norm_num) (by norm_num) (by norm_num) (by norm_num)
  exact ⟨w, h, a, b⟩

/-- C37 fails on both edges of the plateau: an uninitialised variable is used. -/
theorem C37_edge_false (xmin xmax xleft xright : ℝ) (h1 : xmin < xleft) (h2 : xleft ≤ xright) (h3 : xright < xmax) :
    twofast_window xleft xmin xmax xleft xright = .error .uninit ∧
    twofast_window xright xmin xmax xleft xright = .error .uninit := by
  unfold twofast_window
  constructor
  · rw [if_pos ⟨h1.le, h2, h3.le⟩, if_neg (by rintro ⟨h, -⟩; exact lt_irrefl _ h), if_neg (by push Not; exact ⟨h1, h2.trans_lt h3⟩),
      if_neg (by rintro ⟨h, -⟩; exact lt_irrefl _ h), if_neg (by rintro ⟨h, -⟩; exact absurd h (not_lt.2 h2))]
  · rw [if_pos ⟨h1.le, h2, h3.le⟩, if_neg (by rintro ⟨-, h, -⟩; exact lt_irrefl _ h), if_neg (by push Not; exact ⟨h1.trans_le h2, h3⟩),
      if_neg (by rintro ⟨h, -⟩; exact absurd h (not_lt.2 h2)), if_neg (by rintro ⟨h, -⟩; exact lt_irrefl _ h)]

/-- No sample of the grid falls exactly on an edge of the plateau, and the plateau is not empty. -/
structure ClearGrid (kmin kmax : ℝ) (len : ℕ) : Prop where
  plateau : Real.exp 0.46 * kmin ≤ Real.exp (-0.46) * logGrid kmin kmin kmax len (len - 1 : ℝ)
  left : ∀ i < len, logGrid kmin kmin kmax len i ≠ Real.exp 0.46 * kmin
  right : ∀ i < len, logGrid kmin kmin kmax len i ≠ Real.exp (-0.46) * logGrid kmin kmin kmax len (len - 1 : ℝ)

theorem fft_window_ok {kmin kmax : ℝ} {len : ℕ} (h0 : 0 < kmin) (h1 : kmin < kmax) (h : ClearGrid kmin kmax len) {i : ℕ}
    (hi : i < len) : ∃ w, fft_window kmin kmin kmax len (logGrid kmin kmin kmax len i) = .ok w ∧ 0 ≤ w ∧ w ≤ 1 := by
  have hx := logGrid_pos h0 h0 h1 len (len - 1 : ℝ)
  obtain ⟨w, hw, a, b, -⟩ := C37_window_partial (logGrid kmin kmin kmax len i) kmin
    (logGrid kmin kmin kmax len (len - 1 : ℝ)) (Real.exp 0.46 * kmin)
    (Real.exp (-0.46) * logGrid kmin kmin kmax len (len - 1 : ℝ))
    (by nlinarith [Real.add_one_le_exp (0.46 : ℝ)]) h.plateau
    (by
      have : Real.exp (-0.46) ≤ 1 := Real.exp_le_one_iff.2 (by norm_num)
      nlinarith)
    (fun e => absurd e (h.left i hi)) (fun e => absurd e (h.right i hi))
  exact ⟨w, hw, a, b⟩

/-- C37: for such a grid of at least two samples the input of the transform is computed within the arrays: every one of
the `len / 2 + 1` cells of the result is written and no cell outside an array is touched. -/
theorem C37_fft_partial (spline : ℝ → CRes ℝ) (fft : ℕ → (ℕ → ℝ) → ℕ → ℂ) (out : Buf ℕ ℂ) (len : ℕ) (q kmin kmax : ℝ)
    (hlen : 2 ≤ len) (hsz : len < 2 ^ 62) (h0 : 0 < kmin) (h1 : kmin < kmax) (hc : ClearGrid kmin kmax len)
    (hs : ∀ x, kmin ≤ x → x < kmax → ∃ v, spline x = .ok v) (ho : ∀ i, out.dom i ↔ i < len / 2 + 1) :
    ∃ b, twofast_fft_input spline fft out len q kmin kmin kmax = .ok b ∧ (∀ i, b.dom i ↔ i < len / 2 + 1) ∧
      ∃ f, b.Holds (len / 2 + 1) f := by
  have hgrid : ∀ i < len, kmin ≤ logGrid kmin kmin kmax len i ∧ logGrid kmin kmin kmax len i < kmax := fun i hi => by
    have e0 : logGrid kmin kmin kmax len (0 : ℝ) = kmin := by simp [logGrid]
    have e1 : logGrid kmin kmin kmax len (len : ℝ) = kmax := by
      unfold logGrid
      rw [div_self (by exact_mod_cast (by omega : len ≠ 0)), Real.rpow_one]; field_simp
    constructor
    · rcases Nat.eq_zero_or_pos i with rfl | hp
      · exact (by simpa using e0.ge)
      · have := logGrid_lt h0 h0 h1 (len := len) (by omega) (show (0 : ℝ) < i by exact_mod_cast hp)
        rw [e0] at this; exact this.le
    · have := logGrid_lt h0 h0 h1 (len := len) (by omega) (show (i : ℝ) < len by exact_mod_cast hi)
      rwa [e1] at this
  have hw : ∀ i, ∃ w, i < len → fft_window kmin kmin kmax len (logGrid kmin kmin kmax len i) = .ok w := fun i => by
    by_cases hi : i < len
    · obtain ⟨w, hw, -⟩ := fft_window_ok h0 h1 hc hi; exact ⟨w, fun _ => hw⟩
    · exact ⟨0, fun h => absurd h hi⟩
  have hv : ∀ i : ℕ, ∃ v, i < len → spline (logGrid kmin kmin kmax len i) = .ok v := fun i => by
    by_cases hi : i < len
    · obtain ⟨v, hv⟩ := hs _ (hgrid i hi).1 (hgrid i hi).2; exact ⟨v, fun _ => hv⟩
    · exact ⟨0, fun h => absurd h hi⟩
  choose W hW using hw
  choose S hS using hv
  obtain ⟨X, hX, hXh, -⟩ := cfor_cells (cmalloc len : Buf ℕ ℝ) len (fun i => logGrid kmin kmin kmax len i)
    (fun i b => b.store i (logGrid kmin kmin kmax len i)) (fun i hi => hi) (fun i hi c _ _ => rfl)
  obtain ⟨Y, hY, hYh, -⟩ := cfor_cells (cmalloc len : Buf ℕ ℝ) len
    (fun i => (kmax / kmin) ^ ((3 - q) * i / len) * S i * W i)
    (fun i b => do
      let s ← spline (logGrid kmin kmin kmax len i)
      let w ← fft_window kmin kmin kmax len (logGrid kmin kmin kmax len i)
      b.store i ((kmax / kmin) ^ ((3 - q) * i / len) * s * w)) (fun i hi => hi)
    (fun i hi c _ _ => by simp only [hS i hi, hW i hi, bind, Except.bind])
  have hidx : ∀ i < len / 2 + 1, size_t_sub_add (len / 2 + 1) 2 i = len / 2 + 1 - 2 + i ∧ len / 2 + 1 - 2 + i < len :=
    fun i hi => ⟨size_t_index (by omega) (by omega), by omega⟩
  obtain ⟨b, hb, hbh, hbs⟩ := cfor_cells out (len / 2 + 1)
    (fun i => (W (len / 2 + 1 - 2 + i) : ℂ) * (starRingEnd ℂ) (fft len (fun i => (Y.val i).getD 0) i)
      / (2 * Real.pi * len / Real.log (kmax / kmin) : ℝ))
    (fun i b => do
      let x ← X.load (size_t_sub_add (len / 2 + 1) 2 i)
      let w ← fft_window kmin kmin kmax len x
      let y ← (Buf.of (· < len / 2 + 1) (fft len fun i => (Y.val i).getD 0)).load i
      b.store i (w * (starRingEnd ℂ) y / (2 * Real.pi * len / Real.log (kmax / kmin) : ℝ)))
    (fun i hi => (ho i).2 hi) (fun i hi c _ _ => by
      obtain ⟨e, hlt⟩ := hidx i hi
      rw [e]
      simp only [hXh.load hlt, hW _ hlt, Buf.load_of (dom := (· < len / 2 + 1)) _ hi, bind, Except.bind])
  refine ⟨b, ?_, fun i => by rw [hbs.1]; exact ho i, _, hbh⟩
  unfold twofast_fft_input
  dsimp only
  rw [hX]
  simp only [bind, Except.bind] at hY hb ⊢
  rw [hY]
  simp only
  rw [if_neg (by omega)]
  exact hb

/-- Non-vacuity: two samples, wavenumbers 1e-3 and 0.1. -/
theorem clear_example : ClearGrid 1e-3 0.1 2 := by
  have e0 : logGrid 1e-3 1e-3 0.1 2 0 = (1e-3 : ℝ) := by simp [logGrid]
  have e1 : logGrid 1e-3 1e-3 0.1 2 1 = (1e-2 : ℝ) := by
    unfold logGrid
    rw [show (0.1 / 1e-3 : ℝ) = 10 ^ (2 : ℝ) by norm_num, ← Real.rpow_mul (by norm_num)]
    norm_num
  have hx : 1 < Real.exp 0.46 := Real.one_lt_exp_iff.2 (by norm_num)
  have h1 := Real.exp_one_lt_d9
  have hx2 : Real.exp 0.46 * Real.exp 0.46 < 2.8 := by
    rw [← Real.exp_add]
    exact (Real.exp_lt_exp.2 (by norm_num : (0.46 + 0.46 : ℝ) < 1)).trans (by linarith)
  have hy : Real.exp 0.46 * Real.exp (-0.46) = 1 := by rw [← Real.exp_add]; norm_num
  have hyp : 0 < Real.exp (-0.46) := Real.exp_pos _
  have hlast : logGrid 1e-3 1e-3 0.1 2 ((2 : ℕ) - 1 : ℝ) = (1e-2 : ℝ) := by
    rw [← e1]; norm_num
  refine ⟨?_, ?_, ?_⟩
  · rw [hlast]
    nlinarith
  · intro i hi
    interval_cases i
    · rw [Nat.cast_zero, e0]; intro e; nlinarith
    · rw [Nat.cast_one, e1]; intro e; nlinarith
  · rw [hlast]
    intro i hi
    interval_cases i
    · rw [Nat.cast_zero, e0]; intro e; nlinarith
    · rw [Nat.cast_one, e1]; intro e; nlinarith

example : ∃ b, twofast_fft_input (fun x => .ok x) (fun _ f i => f i) (cmalloc 2) 2 0 1e-3 1e-3 0.1 = .ok b := by
  obtain ⟨b, hb, -⟩ := C37_fft_partial (fun x => .ok x) (fun _ f i => f i) (cmalloc 2) 2 0 1e-3 0.1 le_rfl (by norm_num)
    (by norm_num) (by norm_num) clear_example (fun x _ _ => ⟨x, rfl⟩) (fun i => Iff.rfl)
  exact ⟨b, hb⟩

/-- C37: a single sample, and any range that is too short for a plateau, ends the program. -/
theorem C37_short_range (spline : ℝ → CRes ℝ) (fft : ℕ → (ℕ → ℝ) → ℕ → ℂ) (out : Buf ℕ ℂ) (len : ℕ) (q kmin kmax : ℝ)
    (hlen : 1 ≤ len) (hs : ∃ v, spline (logGrid kmin kmin kmax len (0 : ℕ)) = .ok v)
    (h : Real.exp (-0.46) * logGrid kmin kmin kmax len (len - 1 : ℝ) < Real.exp 0.46 * kmin) :
    twofast_fft_input spline fft out len q kmin kmin kmax = .error .exit := by
  obtain ⟨v, hv⟩ := hs
  obtain ⟨X, hX, -⟩ := cfor_cells (cmalloc len : Buf ℕ ℝ) len (fun i => logGrid kmin kmin kmax len i)
    (fun i b => b.store i (logGrid kmin kmin kmax len i)) (fun i hi => hi) (fun i hi c _ _ => rfl)
  unfold twofast_fft_input
  dsimp only
  rw [hX]
  obtain ⟨m, rfl⟩ : ∃ m, len = m + 1 := ⟨len - 1, by omega⟩
  have hu : upTo 0 (m + 1) = 0 :: upTo 1 (m + 1) := by
    simp [upTo, List.range'_succ]
  rw [hu]
  have hwin : ∀ x, fft_window kmin kmin kmax (m + 1) x = .error .exit := fun x => by
    unfold fft_window twofast_window
    rw [if_neg (by rintro ⟨-, h2, -⟩; exact absurd h (not_lt.2 h2))]
  simp only [cfor, bind, Except.bind, hv, hwin]

/-- C37 fails in the transform itself for accepted wavenumbers and the default number of samples: one of the samples
is exactly the edge of the window. -/
theorem C37_fft_edge_false : ∃ kmin kmax : ℝ, 1e-7 ≤ kmin ∧ kmin ≤ 1e-3 ∧ 0.1 ≤ kmax ∧ kmax ≤ 1e3 ∧
    ∀ (spline : ℝ → CRes ℝ) (fft : ℕ → (ℕ → ℝ) → ℕ → ℂ) (out : Buf ℕ ℂ) (q : ℝ),
      ¬ ∃ b, twofast_fft_input spline fft out 10000 q kmin kmin kmax = .ok b := by
  have hlo : (1000 : ℝ) ≤ Real.exp 9.2 := by
    have h1 := Real.exp_one_gt_d9
    have : Real.exp 9 = Real.exp 1 ^ 9 := by rw [← Real.exp_nat_mul]; norm_num
    have h9 : (2.7 : ℝ) ^ 9 ≤ Real.exp 1 ^ 9 := pow_le_pow_left₀ (by norm_num) (by linarith) 9
    have : Real.exp 9 ≤ Real.exp 9.2 := Real.exp_le_exp.2 (by norm_num)
    have h3 : (1000 : ℝ) ≤ 2.7 ^ 9 := by norm_num
    linarith
  have hhi : Real.exp 9.2 ≤ (100000 : ℝ) := by
    have h1 := Real.exp_one_lt_d9
    have : Real.exp 10 = Real.exp 1 ^ 10 := by rw [← Real.exp_nat_mul]; norm_num
    have h9 : Real.exp 1 ^ 10 ≤ (2.72 : ℝ) ^ 10 := pow_le_pow_left₀ (Real.exp_pos _).le (by linarith) 10
    have : Real.exp 9.2 ≤ Real.exp 10 := Real.exp_le_exp.2 (by norm_num)
    have h3 : (2.72 : ℝ) ^ 10 ≤ 100000 := by norm_num
    linarith
  refine ⟨1e-4, 1e-4 * Real.exp 9.2, by norm_num, by norm_num, by linarith, by linarith, ?_⟩
  rintro spline fft out q ⟨b, hb⟩
  unfold twofast_fft_input at hb
  obtain ⟨X, -, hb⟩ := bind_ok_inv hb
  obtain ⟨Y, hY, -⟩ := bind_ok_inv hb
  obtain ⟨s1, s2, e⟩ := cfor_ok_all hY 500 (mem_upTo.2 ⟨by norm_num, by norm_num⟩)
  obtain ⟨s, -, e⟩ := bind_ok_inv e
  obtain ⟨w, hw, -⟩ := bind_ok_inv e
  have hr : (1e-4 * Real.exp 9.2 / 1e-4 : ℝ) = Real.exp 9.2 := by field_simp
  have hpow : ∀ x : ℝ, logGrid 1e-4 1e-4 (1e-4 * Real.exp 9.2) 10000 x = 1e-4 * Real.exp (9.2 * (x / 10000)) := fun x => by
    unfold logGrid
    rw [hr, ← Real.exp_mul]; norm_num
  unfold fft_window at hw
  have hv : logGrid 1e-4 1e-4 (1e-4 * Real.exp 9.2) 10000 ((500 : ℕ) : ℝ) = Real.exp 0.46 * 1e-4 := by
    rw [hpow, mul_comm]; norm_num
  rw [hv, (C37_edge_false _ _ _ _ ?_ ?_ ?_).1] at hw
  · cases hw
  · have := Real.add_one_lt_exp (x := 0.46) (by norm_num); linarith
  · rw [hpow, mul_comm, mul_left_comm, ← Real.exp_add]
    refine mul_le_mul_of_nonneg_left (Real.exp_le_exp.2 ?_) (by norm_num)
    norm_num
  · rw [hpow, mul_left_comm, ← Real.exp_add]
    refine mul_lt_mul_of_pos_left (Real.exp_lt_exp.2 ?_) (by norm_num)
    norm_num

/-! ## The bias -/

theorem twofast_min_eq (a b : ℝ) : twofast_min a b = min a b := by
  unfold twofast_min
  rcases le_or_gt a b with h | h
  · rw [if_neg (not_lt.2 h), min_eq_left h]
  · rw [if_pos h, min_eq_right h.le]

theorem twofast_max_eq (a b : ℝ) : twofast_max a b = max a b := by
  unfold twofast_max
  rcases lt_or_ge a b with h | h
  · rw [if_pos h, max_eq_right h.le]
  · rw [if_neg (not_lt.2 h), max_eq_left h]

/-- C38: the bias lies strictly inside the strip in which the transform of the Bessel function (`-l < q < 2`) and that of
the spectrum (growing like `k^0.9999`, falling like `k^-2.1…`, i.e. `-0.0001 < q + nu < 3.9`) converge, whenever the
strip is not empty. -/
theorem C38_bias (l nu : ℝ) (h : max (-0.0001 - nu) (-l) < min (3.9 - nu) 2) :
    -l < twofast_selectqnu l nu ∧ twofast_selectqnu l nu < 2 ∧
      -0.0001 < twofast_selectqnu l nu + nu ∧ twofast_selectqnu l nu + nu < 3.9 := by
  have e1 : twofast_qmin l nu = max (-0.0001 - nu) (-l) := by
    unfold twofast_qmin; rw [twofast_max_eq]; norm_num
  have e2 : twofast_qmax l nu = min (3.9 - nu) 2 := by
    unfold twofast_qmax; rw [twofast_min_eq]; norm_num
  have key : max (-0.0001 - nu) (-l) < twofast_selectqnu l nu ∧ twofast_selectqnu l nu < min (3.9 - nu) 2 := by
    unfold twofast_selectqnu
    dsimp only
    rw [e1, e2]
    by_cases hq : max (-0.0001 - nu) (-l) < (2 + 0.9 + 0.9999) / 2 - nu ∧ (2 + 0.9 + 0.9999) / 2 - nu < min (3.9 - nu) 2
    · rw [if_neg (not_not.2 hq)]; exact hq
    · rw [if_pos hq]; constructor <;> linarith
  have a := max_lt_iff.1 key.1
  have b := lt_min_iff.1 key.2
  exact ⟨a.2, b.2, by linarith [a.1], by linarith [b.1]⟩

/-- C38: the strip is not empty for every integral of the table that is computed by this transform (all except the
divergent one, `n = 4`, `l = 0`), for every set of contributions, output and multipoles. -/
theorem C38_table (num : Key → Integral) (par : Par) (ls : List ℕ) (e : Entry) (he : e ∈ integrals_init num par ls)
    (h4 : e.key ≠ ⟨4, 0, .int, .int⟩) :
    max (-0.0001 - integrals_local e.key.n e.key.state_n) (-integrals_local e.key.l e.key.state_l)
      < min (3.9 - integrals_local e.key.n e.key.state_n) 2 := by
  have key : ∀ n l : ℝ, -2 < n → -2 < l → n < l + 3.9 → max (-0.0001 - n) (-l) < min (3.9 - n) 2 := fun n l a b c => by
    rw [max_lt_iff, lt_min_iff, lt_min_iff]
    refine ⟨⟨by linarith, by linarith⟩, by linarith, by linarith⟩
  unfold integrals_init at he
  simp only [List.mem_append] at he
  rcases he with (((he | he) | he) | he) | he
  · simp only [baseKeys, List.map_cons, List.map_nil, List.mem_cons, List.not_mem_nil, or_false] at he
    rcases he with rfl | rfl | rfl | rfl | rfl | rfl | rfl | rfl <;>
      (apply key <;> simp only [plainEntry, integrals_local, reduceCtorEq, if_false] <;> norm_num)
  · split_ifs at he
    · simp only [List.mem_singleton] at he
      subst he
      exact absurd rfl h4
    · cases he
  · split_ifs at he
    · simp only [List.mem_singleton] at he
      subst he
      apply key <;> simp only [plainEntry, integrals_local, if_true] <;> norm_num
    · cases he
  · split_ifs at he
    · obtain ⟨l, -, rfl⟩ := List.mem_map.1 he
      have : (0 : ℝ) ≤ l := Nat.cast_nonneg l
      apply key <;> simp only [plainEntry, integrals_local, reduceCtorEq, if_false] <;> push_cast <;> linarith
    · cases he
  · split_ifs at he
    · obtain ⟨l, -, he⟩ := List.mem_flatMap.1 he
      obtain ⟨k, hk, rfl⟩ := List.mem_map.1 he
      have hk' : 2 * k ≤ l := by have := List.mem_range.1 hk; omega
      have : (2 * k : ℝ) ≤ l := by exact_mod_cast hk'
      apply key <;> simp only [plainEntry, integrals_local, den_len_entry_key, if_true] <;> push_cast <;> linarith
    · cases he

/-- Non-vacuity, and the reason for the exception: the strip of the divergent integral is empty. -/
example : max (-0.0001 - 3) (-1 : ℝ) < min (3.9 - 3) 2 ∧ ¬ max (-0.0001 - 4) (-0 : ℝ) < min (3.9 - 4) 2 := by
  norm_num

/-! ## The tables -/

theorem twofast_1bessel_ok (spline : ℝ → CRes ℝ) (fft : ℕ → (ℕ → ℝ) → ℕ → ℂ) (ifft : ℕ → (ℕ → ℂ) → ℕ → ℝ)
    (mql : ℝ → ℝ → ℝ → ℝ → ℂ) (X Y : Buf ℕ ℝ) (len : ℕ) (l nu kmin kmax : ℝ)
    (hlen : 2 ≤ len) (hsz : len < 2 ^ 62) (h0 : 0 < kmin) (h1 : kmin < kmax) (hc : ClearGrid kmin kmax len)
    (hs : ∀ x, kmin ≤ x → x < kmax → ∃ v, spline x = .ok v) (hX : ∀ i < len, X.dom i) (hY : ∀ i < len, Y.dom i) :
    ∃ X' Y' f, twofast_1bessel spline fft ifft mql X Y len l nu 1 kmin kmin kmax = .ok (X', Y') ∧
      X'.Holds len (fun i => (kmax / kmin) ^ ((i : ℝ) / len)) ∧ Y'.Holds len f := by
  obtain ⟨B, hB, hBd, f, hBf⟩ := C37_fft_partial spline fft (cmalloc (len / 2 + 1)) len (twofast_selectqnu l nu + nu) kmin
    kmax hlen hsz h0 h1 hc hs (fun i => Iff.rfl)
  obtain ⟨X', hX', hXh, -⟩ := cfor_cells X len (fun i => logGrid 1 kmin kmax len i)
    (fun i b => b.store i (logGrid 1 kmin kmax len i)) hX (fun i hi c _ _ => rfl)
  obtain ⟨P, hP, hPh, -⟩ := cfor_cells (cmalloc len : Buf ℕ ℝ) len
    (fun i => kmin * kmin * kmin * (kmax / kmin) ^ (-((twofast_selectqnu l nu + nu) * i / len)) / Real.pi / (1 * kmin) ^ nu
      / Real.log (kmax / kmin))
    (fun i b => b.store i (kmin * kmin * kmin * (kmax / kmin) ^ (-((twofast_selectqnu l nu + nu) * i / len)) / Real.pi
      / (1 * kmin) ^ nu / Real.log (kmax / kmin))) (fun i hi => hi) (fun i hi c _ _ => rfl)
  obtain ⟨T, hT, hTh, -⟩ := cfor_cells (cmalloc (len / 2 + 1) : Buf ℕ ℂ) (len / 2 + 1)
    (fun i => f i * mql (2 * Real.pi * i / Real.log (kmax / kmin)) (twofast_selectqnu l nu) l (kmin * 1))
    (fun i b => do
      let y ← B.load i
      b.store i (y * mql (2 * Real.pi * i / Real.log (kmax / kmin)) (twofast_selectqnu l nu) l (kmin * 1)))
    (fun i hi => hi) (fun i hi c _ _ => by simp only [hBf.load hi, bind, Except.bind])
  obtain ⟨B', hB', -, -⟩ := cfor_cells B (len / 2 + 1)
    (fun i => f i * mql (2 * Real.pi * i / Real.log (kmax / kmin)) (twofast_selectqnu l nu) l (kmin * 1))
    (fun i b => do
      let y ← T.load i
      b.store i y) (fun i hi => (hBf i hi).1) (fun i hi c _ _ => by simp only [hTh.load hi, bind, Except.bind])
  have hO : (Buf.of (· < len) (ifft len fun i => (B'.val i).getD 0)).Holds len (ifft len fun i => (B'.val i).getD 0) :=
    fun i hi => Buf.load_eq.1 (Buf.load_of (dom := (· < len)) _ hi)
  obtain ⟨O, hOe, hOh, -⟩ := cfor_cells (Buf.of (· < len) (ifft len fun i => (B'.val i).getD 0)) len
    (fun i => ifft len (fun i => (B'.val i).getD 0) i * (kmin * kmin * kmin * (kmax / kmin) ^
      (-((twofast_selectqnu l nu + nu) * i / len)) / Real.pi / (1 * kmin) ^ nu / Real.log (kmax / kmin)))
    (fun i b => do
      let v ← b.load i
      let c ← P.load i
      b.store i (v * c)) (fun i hi => hi) (fun i hi c hd hv => by
        have : c.load i = .ok (ifft len (fun i => (B'.val i).getD 0) i) :=
          Buf.load_eq.2 ⟨by rw [hd]; exact (hO i hi).1, by rw [hv]; exact (hO i hi).2⟩
        simp only [this, hPh.load hi, bind, Except.bind])
  obtain ⟨Y', hY', hYh, -⟩ := cfor_cells Y len _
    (fun i b => do
      let v ← O.load i
      b.store i v) hY (fun i hi c _ _ => by simp only [hOh.load hi, bind, Except.bind]; rfl)
  refine ⟨X', Y', _, ?_, ?_, hYh⟩
  · unfold twofast_1bessel
    dsimp only
    rw [hB]
    simp only [bind, Except.bind] at hT hB' hOe hY' ⊢
    rw [hX']
    simp only
    rw [hP]
    simp only
    rw [hT]
    simp only
    rw [hB']
    simp only
    rw [hOe]
    simp only
    rw [hY']
    rfl
  · intro i hi
    have := hXh i hi
    simpa [logGrid] using this

open Classical in
/-- The buffer with one more cell written. -/
noncomputable def Buf.upd {ι α : Type} (b : Buf ι α) (i : ι) (v : α) : Buf ι α :=
  ⟨b.dom, Function.update b.val i (some v)⟩

theorem store_ok {ι α : Type} {b : Buf ι α} {i : ι} (h : b.dom i) (v : α) : b.store i v = .ok (b.upd i v) := by
  rw [Buf.store, if_pos h]; rfl

theorem upd_load {ι α : Type} {b : Buf ι α} {i : ι} (h : b.dom i) (v : α) : (b.upd i v).load i = .ok v :=
  Buf.load_eq.2 ⟨h, by simp [Buf.upd]⟩

theorem cfor_pair (is : List ℕ) (f g : ℕ → ℝ) (body : ℕ → Buf ℕ ℝ × Buf ℕ ℝ → CRes (Buf ℕ ℝ × Buf ℕ ℝ)) (x y : Buf ℕ ℝ)
    (hx : ∀ i ∈ is, x.dom i) (hy : ∀ i ∈ is, y.dom i)
    (hb : ∀ i ∈ is, ∀ x' y' : Buf ℕ ℝ, x'.dom i → y'.dom i → body i (x', y') = .ok (x'.upd i (f i), y'.upd i (g i))) :
    cfor is body (x, y) = .ok (x.fill is id f, y.fill is id g) := by
  induction is generalizing x y with
  | nil => rfl
  | cons i is ih =>
    simp only [cfor, hb i (by simp) x y (hx i (by simp)) (hy i (by simp)), Buf.fill, id]
    exact ih (x.upd i (f i)) (y.upd i (g i)) (fun j hj => hx j (by simp [hj])) (fun j hj => hy j (by simp [hj]))
      (fun j hj => hb j (by simp [hj]))

/-- The separations of a table: zero, the fixed small ones, then a logarithmic grid from one. -/
noncomputable def tableSep (len : ℕ) (ratio : ℝ) (i : ℕ) : ℝ :=
  if i = 0 then 0 else if i < 43 then (min_sep.getD (i - 1) 0 : ℝ) else ratio ^ (((i - 43 : ℕ) : ℝ) / len)

theorem tableSep_strictMono {len : ℕ} (hl : 0 < len) {ratio : ℝ} (hr : 1 < ratio) : StrictMono (tableSep len ratio) := by
  refine strictMono_nat_of_lt_succ fun i => ?_
  unfold tableSep
  have hl' : (0 : ℝ) < len := by exact_mod_cast hl
  rcases Nat.lt_trichotomy i 42 with h | h | h
  · rw [if_neg (Nat.succ_ne_zero i), if_pos (show i + 1 < 43 by omega)]
    by_cases h0 : i = 0
    · subst h0
      rw [if_pos rfl]
      exact_mod_cast (min_sep_sorted 0 1 (by norm_num) (by norm_num)).1
    · rw [if_neg h0, if_pos (by omega)]
      exact_mod_cast (min_sep_sorted (i - 1) (i + 1 - 1) (by omega) (by omega)).2.1
  · subst h
    rw [if_neg (by norm_num), if_pos (by norm_num), if_neg (by norm_num), if_neg (by norm_num)]
    have := (min_sep_sorted 40 41 (by norm_num) (by norm_num)).2.2
    have h2 : ((min_sep.getD 41 0 : ℚ) : ℝ) < 1 := by exact_mod_cast this
    simpa using h2
  · rw [if_neg (by omega), if_neg (by omega), if_neg (by omega), if_neg (by omega)]
    refine Real.rpow_lt_rpow_of_exponent_lt hr ?_
    have : ((i - 43 : ℕ) : ℝ) < ((i + 1 - 43 : ℕ) : ℝ) := by exact_mod_cast (by omega : i - 43 < i + 1 - 43)
    gcongr

/-- C51: the tables behind the look-ups of the integrals are complete: `len + 43` cells, all of them written; the
separations increase strictly from zero to `(kmax / kmin) ^ ((len - 1) / len)`; the value at zero separation is zero
for `n < l` and the limit otherwise, and the values below unit separation are the directly computed integrals. -/
theorem C51_table (spline : ℝ → CRes ℝ) (fft : ℕ → (ℕ → ℝ) → ℕ → ℂ) (ifft : ℕ → (ℕ → ℂ) → ℕ → ℝ)
    (mql : ℝ → ℝ → ℝ → ℝ → ℂ) (zero : ℝ) (direct : ℝ → ℝ) (len : ℕ) (k : Key) (kmin kmax : ℝ)
    (hlen : 2 ≤ len) (hsz : len < 2 ^ 62) (h0 : 0 < kmin) (h1 : kmin < kmax) (hc : ClearGrid kmin kmax len)
    (hs : ∀ x, kmin ≤ x → x < kmax → ∃ v, spline x = .ok v) :
    ∃ x y Y, coffe_integrals_renormalizable (fun X Y => twofast_1bessel spline fft ifft mql X Y len
        (integrals_local k.l k.state_l) (integrals_local k.n k.state_n) 1 kmin kmin kmax) zero direct len k
        = .ok (x, y, len + 43) ∧
      x.IsArray (len + 43) (tableSep len (kmax / kmin)) ∧ y.IsArray (len + 43) Y ∧
      StrictMono (tableSep len (kmax / kmin)) ∧
      Y 0 = (if integrals_local k.n k.state_n < integrals_local k.l k.state_l then 0
        else zero * integrals_coefficients k.l k.state_l) ∧
      ∀ i, 1 ≤ i → i < 43 → Y i = direct (tableSep len (kmax / kmin) i) := by
  have hratio : 1 < kmax / kmin := (one_lt_div h0).2 h1
  obtain ⟨X', Y', f, hbes, hX', hY'⟩ := twofast_1bessel_ok spline fft ifft mql (cmalloc len) (cmalloc len) len
    (integrals_local k.l k.state_l) (integrals_local k.n k.state_n) kmin kmax hlen hsz h0 h1 hc hs (fun i hi => hi)
    (fun i hi => hi)
  -- the rescaled transform
  obtain ⟨Y2, g, hY2, hstep⟩ : ∃ Y2 g, Buf.Holds Y2 len g ∧
      (if integrals_local k.n k.state_n ≥ integrals_local k.l k.state_l then do
        let fft_y ← coffe_multiply_power_array_self (some Y') (some X') len
          (integrals_local k.n k.state_n - integrals_local k.l k.state_l)
        pure (fft_y, zero * integrals_coefficients k.l k.state_l)
      else pure (Y', 0) : CRes (Buf ℕ ℝ × ℝ)) = .ok (Y2, if integrals_local k.n k.state_n < integrals_local k.l k.state_l
        then 0 else zero * integrals_coefficients k.l k.state_l) := by
    by_cases hnl : integrals_local k.n k.state_n < integrals_local k.l k.state_l
    · rw [if_neg (not_le.2 hnl), if_pos hnl]
      exact ⟨Y', f, hY', rfl⟩
    · rw [if_pos (not_lt.1 hnl), if_neg hnl]
      obtain ⟨c, hc, hch, -⟩ := C46_multiply_power_self Y' X' len f _
        (integrals_local k.n k.state_n - integrals_local k.l k.state_l) hY' hX' (fun i _ => by
          have : 0 < kmax / kmin := by linarith
          positivity)
      exact ⟨c, _, hch, by rw [hc]; rfl⟩
  generalize hx0 : (if integrals_local k.n k.state_n < integrals_local k.l k.state_l
        then 0 else zero * integrals_coefficients k.l k.state_l) = x0 at *
  let A : Buf ℕ ℝ := (cmalloc (len + 42 + 1) : Buf ℕ ℝ).upd 0 0
  let B : Buf ℕ ℝ := (cmalloc (len + 42 + 1) : Buf ℕ ℝ).upd 0 x0
  let F1 : ℕ → ℝ := fun i => (min_sep.getD (i - 1) 0 : ℝ)
  let F2 : ℕ → ℝ := fun i => (kmax / kmin) ^ (((i - 43 : ℕ) : ℝ) / len)
  have hA : (cmalloc (len + 42 + 1) : Buf ℕ ℝ).store 0 0 = .ok A := store_ok (show 0 < len + 42 + 1 by omega) 0
  have hB : (cmalloc (len + 42 + 1) : Buf ℕ ℝ).store 0 x0 = .ok B := store_ok (show 0 < len + 42 + 1 by omega) x0
  have hl1 := cfor_pair (upTo 1 (42 + 1)) F1 (fun i => direct (F1 i)) (fun i b => do
      let x ← b.1.store i (min_sep.getD (i - 1) 0 : ℝ)
      let v ← x.load i
      let y ← b.2.store i (direct v)
      pure (x, y)) A B (fun i hi => by have := (mem_upTo.1 hi).2; show i < len + 43; omega)
      (fun i hi => by have := (mem_upTo.1 hi).2; show i < len + 43; omega) (fun i hi x' y' hx hy => by
        simp only [bind, Except.bind, store_ok hx, upd_load hx, store_ok hy]
        rfl)
  have hl2 := cfor_pair (upTo 43 (len + 43)) F2 (fun i => g (i - 43)) (fun i b => do
      let u ← X'.load (i - 43)
      let x ← b.1.store i u
      let v ← Y2.load (i - 43)
      let y ← b.2.store i v
      pure (x, y)) (A.fill (upTo 1 (42 + 1)) id F1) (B.fill (upTo 1 (42 + 1)) id fun i => direct (F1 i))
      (fun i hi => by rw [Buf.fill_dom]; exact (mem_upTo.1 hi).2)
      (fun i hi => by rw [Buf.fill_dom]; exact (mem_upTo.1 hi).2) (fun i hi x' y' hx hy => by
        have hi' := mem_upTo.1 hi
        have hlt : i - 43 < len := by omega
        simp only [bind, Except.bind, hX'.load hlt, hY2.load hlt, store_ok hx, store_ok hy]
        rfl)
  refine ⟨(A.fill (upTo 1 (42 + 1)) id F1).fill (upTo 43 (len + 43)) id F2,
    (B.fill (upTo 1 (42 + 1)) id fun i => direct (F1 i)).fill (upTo 43 (len + 43)) id fun i => g (i - 43),
    fun i => if i = 0 then x0 else if i < 43 then direct (F1 i) else g (i - 43), ?_, ⟨?_, ?_⟩, ⟨?_, ?_⟩,
    tableSep_strictMono (by omega) hratio, if_pos rfl, ?_⟩
  · unfold coffe_integrals_renormalizable
    dsimp only
    rw [hbes]
    rw [min_sep_len_eq]
    simp only [bind, Except.bind] at hstep hl1 hl2 ⊢
    rw [hstep]
    simp only
    rw [hA]
    simp only
    rw [hB]
    simp only
    rw [hl1]
    simp only
    rw [show len + 42 + 1 - len = 43 by omega, show len + 42 + 1 = len + 43 by omega, hl2]
    rfl
  · intro i; rw [Buf.fill_dom, Buf.fill_dom]; exact Iff.rfl
  · intro i hi
    refine ⟨by rw [Buf.fill_dom, Buf.fill_dom]; exact hi, ?_⟩
    unfold tableSep
    by_cases h43 : i < 43
    · rw [Buf.fill_not_mem _ _ _ _ (fun j hj e => by have := (mem_upTo.1 hj).1; simp only [id] at e; omega)]
      by_cases hz : i = 0
      · rw [Buf.fill_not_mem _ _ _ _ (fun j hj e => by have := (mem_upTo.1 hj).1; simp only [id] at e; omega), if_pos hz, hz]
        simp [A, Buf.upd]
      · rw [if_neg hz, if_pos h43]
        exact Buf.fill_mem _ _ id _ (fun a _ b _ e => by rw [show a = b from e]) (mem_upTo.2 ⟨by omega, by omega⟩)
    · rw [if_neg (by omega), if_neg h43]
      exact Buf.fill_mem _ _ id _ (fun a _ b _ e => by rw [show a = b from e]) (mem_upTo.2 ⟨by omega, hi⟩)
  · intro i; rw [Buf.fill_dom, Buf.fill_dom]; exact Iff.rfl
  · intro i hi
    refine ⟨by rw [Buf.fill_dom, Buf.fill_dom]; exact hi, ?_⟩
    dsimp only
    by_cases h43 : i < 43
    · rw [Buf.fill_not_mem _ _ _ _ (fun j hj e => by have := (mem_upTo.1 hj).1; simp only [id] at e; omega)]
      by_cases hz : i = 0
      · rw [Buf.fill_not_mem _ _ _ _ (fun j hj e => by have := (mem_upTo.1 hj).1; simp only [id] at e; omega), if_pos hz, hz]
        simp [B, Buf.upd]
      · rw [if_neg hz, if_pos h43]
        exact Buf.fill_mem _ _ id _ (fun a _ b _ e => by rw [show a = b from e]) (mem_upTo.2 ⟨by omega, by omega⟩)
    · rw [if_neg (by omega), if_neg h43]
      exact Buf.fill_mem _ _ id _ (fun a _ b _ e => by rw [show a = b from e]) (mem_upTo.2 ⟨by omega, hi⟩)
  · intro i hi1 hi43
    dsimp only
    rw [if_neg (by omega), if_pos hi43]
    unfold tableSep
    rw [if_neg (by omega), if_pos hi43]

/-- Non-vacuity of C51. -/
example : ∃ x y, coffe_integrals_renormalizable (fun X Y => twofast_1bessel (fun x => .ok x) (fun _ f i => f i)
    (fun _ f i => (f i).re) (fun _ _ _ _ => 1) X Y 2 0 2 1 1e-3 1e-3 0.1) 5 (fun x => x) 2 ⟨2, 0, .int, .int⟩
    = .ok (x, y, 45) := by
  obtain ⟨x, y, Y, h, -⟩ := C51_table (fun x => .ok x) (fun _ f i => f i) (fun _ f i => (f i).re) (fun _ _ _ _ => 1) 5
    (fun x => x) 2 ⟨2, 0, .int, .int⟩ 1e-3 0.1 le_rfl (by norm_num) (by norm_num) (by norm_num) clear_example
    (fun x _ _ => ⟨x, rfl⟩)
  refine ⟨x, y, ?_⟩
  have e1 : integrals_local 0 .int = 0 := by simp [integrals_local]
  have e2 : integrals_local 2 .int = 2 := by simp [integrals_local]
  simpa only [e1, e2] using h

/-- C52: the factor used for the limit of zero separation is the leading coefficient of the spherical Bessel function,
`1 / (2 l + 1)!!`. -/
theorem C52_spherical (l : ℕ) : integrals_coefficients l .int = 1 / (Nat.doubleFactorial (2 * l + 1) : ℝ) := by
  have hg : ∀ l : ℕ, Real.Gamma ((l : ℝ) + 1.5) = Nat.doubleFactorial (2 * l + 1) * Real.sqrt Real.pi / 2 ^ (l + 1) := by
    intro l
    induction l with
    | zero =>
      have := Real.Gamma_add_one (s := 1 / 2) (by norm_num)
      rw [Real.Gamma_one_half_eq] at this
      norm_num at this ⊢
      rw [this]; ring
    | succ l ih =>
      have := Real.Gamma_add_one (s := (l : ℝ) + 1.5) (by positivity)
      rw [ih] at this
      rw [show ((l + 1 : ℕ) : ℝ) + 1.5 = (l : ℝ) + 1.5 + 1 by push_cast; ring, this,
        show 2 * (l + 1) + 1 = (2 * l + 1) + 2 by ring, Nat.doubleFactorial_add_two]
      push_cast
      field_simp
      ring
  unfold integrals_coefficients
  rw [if_neg (by simp)]
  simp only [Int.cast_natCast]
  rw [hg l]
  have h2 : (2 : ℝ) ^ ((l : ℝ) + 0.5) = 2 ^ l * Real.sqrt 2 := by
    rw [Real.rpow_add (by norm_num), Real.rpow_natCast, Real.sqrt_eq_rpow]; norm_num
  rw [h2, Real.sqrt_div Real.pi_pos.le]
  have hs : Real.sqrt 2 * Real.sqrt 2 = 2 := Real.mul_self_sqrt (by norm_num)
  have hs0 : Real.sqrt 2 ≠ 0 := by positivity
  have hp0 : Real.sqrt Real.pi ≠ 0 := by have := Real.pi_pos; positivity
  have hd : (Nat.doubleFactorial (2 * l + 1) : ℝ) ≠ 0 := by
    have := Nat.doubleFactorial_pos (2 * l + 1)
    positivity
  field_simp
  rw [show Real.sqrt 2 ^ 2 = 2 by rw [sq, hs]]
  ring

/-- C52: for the half-integer orders, that of the Bessel function of order `m = (l + 1) / 2`, `1 / (2 ^ m m!)`. -/
theorem C52_cylindrical (m : ℕ) : integrals_coefficients (2 * m - 1) .half = 1 / (2 ^ m * (m.factorial : ℝ)) := by
  unfold integrals_coefficients
  rw [if_pos rfl]
  have e1 : (((2 * m - 1 : ℤ)) : ℝ) / 2 + 0.5 = m := by push_cast; ring
  have e2 : (((2 * m - 1 : ℤ)) : ℝ) / 2 + 1.5 = m + 1 := by push_cast; ring
  rw [e1, e2, Real.Gamma_nat_eq_factorial, Real.rpow_natCast, div_div]

end Coffe
