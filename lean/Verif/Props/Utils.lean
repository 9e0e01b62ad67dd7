import Verif.Model.C.Utils
import Verif.Spec.Utils
import Verif.Proofs.CMem
import Mathlib.Tactic.FieldSimp

/-! # C45: padding keeps the data -/

namespace Coffe
open Classical

theorem Except.bind_ok' {ε α β : Type} {m : Except ε α} {a : α} (h : m = .ok a) (k : α → Except ε β) :
    (m >>= k) = k a := by rw [h]; rfl

theorem load_of2 {f : ℤ → ℤ → ℝ} {fk : Buf (ℤ × ℤ) ℝ} {N : ℕ}
    (h : ∀ i j : ℤ, 0 ≤ i → i < N → 0 ≤ j → j < N → fk.dom (i, j) ∧ fk.val (i, j) = some (f i j)) {i j : ℤ}
    (h1 : 0 ≤ i ∧ i < N) (h2 : 0 ≤ j ∧ j < N) : fk.load (i, j) = .ok (f i j) :=
  Buf.load_eq.2 (h i j h1.1 h1.2 h2.1 h2.2)

theorem linExtend_left (f : ℤ → ℝ) {N k : ℤ} (h : k < 0) :
    linExtend f N k = f 0 + k * (f 1 - f 0) := if_pos h

theorem linExtend_right (f : ℤ → ℝ) {N k : ℤ} (h : ¬ k < 0) (h' : ¬ k < N) :
    linExtend f N k = f (N - 1) + (k - N + 1) * (f (N - 1) - f (N - 2)) := by
  rw [linExtend, if_neg h, if_neg h']

/-- A loop along a row. -/
theorem cfor_row {α : Type} (lo hi : ℕ) (i : ℤ) (g : ℤ × ℤ → α)
    (body : ℕ → Buf (ℤ × ℤ) α → CRes (Buf (ℤ × ℤ) α)) (b : Buf (ℤ × ℤ) α)
    (hd : ∀ j : ℕ, lo ≤ j → j < hi → b.dom (i, j))
    (h : ∀ j : ℕ, lo ≤ j → j < hi → ∀ c : Buf (ℤ × ℤ) α, body j c = c.store (i, j) (g (i, j))) :
    ∃ c, cfor (upTo lo hi) body b = .ok c ∧ b.Wrote (fun p => p.1 = i ∧ (lo : ℤ) ≤ p.2 ∧ p.2 < hi) g c := by
  obtain ⟨c, e, hw⟩ := cfor_regions (upTo lo hi) (fun j p => p = (i, (j : ℤ))) g body b fun j hj c hc _ => by
    obtain ⟨h1, h2⟩ := mem_upTo.1 hj
    rw [h j h1 h2 c]
    exact c.store_wrote _ g (by rw [hc]; exact hd j h1 h2)
  refine ⟨c, e, hw.congr (fun p => ?_) fun _ _ => rfl⟩
  constructor
  · rintro ⟨j, hj, rfl⟩
    have := mem_upTo.1 hj
    exact ⟨rfl, by omega, by omega⟩
  · rintro ⟨h0, h1, h2⟩
    exact ⟨p.2.toNat, mem_upTo.2 (by omega), Prod.ext h0 (by simp; omega)⟩

/-- A loop along a column. -/
theorem cfor_column {α : Type} (lo hi : ℕ) (j : ℤ) (g : ℤ × ℤ → α)
    (body : ℕ → Buf (ℤ × ℤ) α → CRes (Buf (ℤ × ℤ) α)) (b : Buf (ℤ × ℤ) α)
    (hd : ∀ i : ℕ, lo ≤ i → i < hi → b.dom (i, j))
    (h : ∀ i : ℕ, lo ≤ i → i < hi → ∀ c : Buf (ℤ × ℤ) α, body i c = c.store (i, j) (g (i, j))) :
    ∃ c, cfor (upTo lo hi) body b = .ok c ∧ b.Wrote (fun p => p.2 = j ∧ (lo : ℤ) ≤ p.1 ∧ p.1 < hi) g c := by
  obtain ⟨c, e, hw⟩ := cfor_regions (upTo lo hi) (fun i p => p = ((i : ℤ), j)) g body b fun i hi' c hc _ => by
    obtain ⟨h1, h2⟩ := mem_upTo.1 hi'
    rw [h i h1 h2 c]
    exact c.store_wrote _ g (by rw [hc]; exact hd i h1 h2)
  refine ⟨c, e, hw.congr (fun p => ?_) fun _ _ => rfl⟩
  constructor
  · rintro ⟨i, hi', rfl⟩
    have := mem_upTo.1 hi'
    exact ⟨rfl, by omega, by omega⟩
  · rintro ⟨h0, h1, h2⟩
    exact ⟨p.1.toNat, mem_upTo.2 (by omega), Prod.ext (by simp; omega) h0⟩

theorem exp_log_zpow {x y : ℝ} (hx : 0 < x) (hy : 0 < y) (k : ℤ) :
    Real.exp (Real.log x + k * Real.log y) = x * y ^ k := by
  rw [Real.exp_add, Real.exp_log hx, ← Real.log_zpow, Real.exp_log (zpow_pos hy k)]

/-- **C45.** Logarithmic padding of positive samples: the samples are kept in the middle, both ends are
continued as geometric progressions, exactly the `N_origin + 2 N_extra` cells are written, nothing outside the
arrays is touched. -/
theorem C45_log_linear (fk large : Buf ℤ ℝ) (N E : ℕ) (f : ℤ → ℝ) (hN : 2 ≤ N)
    (hf : ∀ i : ℤ, 0 ≤ i → i < N → fk.dom i ∧ fk.val i = some (f i))
    (hl : ∀ i : ℤ, 0 ≤ i → i < N + 2 * E → large.dom i)
    (hp : ∀ i : ℤ, 0 ≤ i → i < N → 0 < f i) :
    ∃ c, extrap_log_linear fk N E large = .ok c ∧
      large.Wrote (fun i => 0 ≤ i ∧ i < N + 2 * E) (fun i => geomExtend f N (i - E)) c := by
  have ld : ∀ i : ℤ, 0 ≤ i → i < N → fk.load i = .ok (f i) := fun i h1 h2 => Buf.load_eq.2 (hf i h1 h2)
  have p0 := hp 0 le_rfl (by omega)
  have p1 := hp 1 (by omega) (by omega)
  have q1 := hp (N - 1) (by omega) (by omega)
  have q2 := hp (N - 2) (by omega) (by omega)
  obtain ⟨c1, e1, w1⟩ := cfor_segment 0 E (fun i => geomExtend f N (i - E)) (fun i large_fk => do
      let dln_left ← clogdiv (f 1) (f 0)
      large_fk.store i (Real.exp (Real.log (f 0) + ((i : ℝ) - E) * dln_left))) large
    (fun i _ h => hl i (by omega) (by omega)) (fun i _ h c => by
      rw [Except.bind_ok' (show clogdiv (f 1) (f 0) = .ok (Real.log (f 1 / f 0)) from
        if_pos ⟨p0.ne', by positivity⟩)]
      congr 1
      have : ((i : ℝ) - E) = ((i - E : ℤ) : ℝ) := by push_cast; rfl
      rw [this, exp_log_zpow p0 (by positivity), geomExtend, if_pos (by omega)])
  obtain ⟨c2, e2, w2⟩ := cfor_segment E (E + N) (fun i => geomExtend f N (i - E)) (fun i large_fk => do
      let v ← fk.load ((i : ℤ) - E)
      large_fk.store i v) c1
    (fun i _ h => by rw [w1.1]; exact hl i (by omega) (by omega)) (fun i h1 h2 c => by
      rw [Except.bind_ok' (ld _ (by omega) (by omega)), geomExtend, if_neg (by omega), if_pos (by omega)])
  obtain ⟨c3, e3, w3⟩ := cfor_segment (E + N) (2 * E + N) (fun i => geomExtend f N (i - E)) (fun i large_fk => do
      let dln_right ← clogdiv (f (N - 1)) (f (N - 2))
      large_fk.store i (Real.exp (Real.log (f (N - 1)) + ((i : ℝ) - E - N + 1) * dln_right))) c2
    (fun i _ h => by rw [w2.1, w1.1]; exact hl i (by omega) (by omega)) (fun i h1 h2 c => by
      rw [Except.bind_ok' (show clogdiv (f (N - 1)) (f (N - 2)) = .ok (Real.log (f (N - 1) / f (N - 2))) from
        if_pos ⟨q2.ne', by positivity⟩)]
      congr 1
      have : ((i : ℝ) - E - N + 1) = ((i - E - N + 1 : ℤ) : ℝ) := by push_cast; rfl
      rw [this, exp_log_zpow q1 (by positivity), geomExtend, if_neg (by omega), if_neg (by omega)])
  refine ⟨c3, ?_, ((w1.trans w2).trans w3).congr (fun p => ?_) fun _ _ => rfl⟩
  · unfold extrap_log_linear
    rw [Except.bind_ok' (ld 1 (by omega) (by omega)), Except.bind_ok' (ld 0 (by omega) (by omega)),
      if_neg (not_le.2 p0), Except.bind_ok' e1]; beta_reduce; rw [Except.bind_ok' e2,
      Except.bind_ok' (ld _ (by omega) (by omega)), Except.bind_ok' (ld _ (by omega) (by omega)),
      if_neg (not_le.2 q1), e3]
  · push_cast; omega

/-- With a single sample the code reads outside the array. -/
theorem C45_log_linear_short (large : Buf ℤ ℝ) (E : ℕ) :
    extrap_log_linear (Buf.of (fun i => 0 ≤ i ∧ i < 1) (fun _ => 1)) 1 E large = .error .oob := by
  unfold extrap_log_linear
  rw [Buf.load_oob _ (by simp [Buf.of])]; rfl

/-- **C45.** Linear padding of a square table: the samples are kept in the middle, rows and then columns are
continued as straight lines, every cell is written. -/
theorem C45_bilinear (fk large : Buf (ℤ × ℤ) ℝ) (N E : ℕ) (f : ℤ → ℤ → ℝ) (hN : 2 ≤ N)
    (hf : ∀ i j : ℤ, 0 ≤ i → i < N → 0 ≤ j → j < N → fk.dom (i, j) ∧ fk.val (i, j) = some (f i j))
    (hl : ∀ i j : ℤ, 0 ≤ i → i < N + 2 * E → 0 ≤ j → j < N + 2 * E → large.dom (i, j)) :
    ∃ c, extrap_bilinear fk N E large = .ok c ∧
      large.Wrote (fun p => 0 ≤ p.1 ∧ p.1 < N + 2 * E ∧ 0 ≤ p.2 ∧ p.2 < N + 2 * E)
        (fun p => linExtend (fun a => linExtend (f a) N (p.2 - E)) N (p.1 - E)) c := by
  set g : ℤ × ℤ → ℝ := fun p => linExtend (fun a => linExtend (f a) N (p.2 - E)) N (p.1 - E) with hg
  have gmid : ∀ i j : ℤ, E ≤ i → i < N + E → g (i, j) = linExtend (f (i - E)) N (j - E) := by
    intro i j h1 h2
    simp only [hg]
    rw [linExtend, if_neg (by omega), if_pos (by omega)]
  obtain ⟨c1, e1, w1⟩ := cfor_regions (upTo E (N + E))
    (fun (i : ℕ) (p : ℤ × ℤ) => p.1 = (i : ℤ) ∧ 0 ≤ p.2 ∧ p.2 < N + 2 * E) g (extrap_row fk N E) large fun i hi c hc _ => by
      obtain ⟨h1, h2⟩ := mem_upTo.1 hi
      have hd : ∀ j : ℕ, j < N + 2 * E → large.dom (i, j) := fun j hj => hl i j (by omega) (by omega)
        (by omega) (by omega)
      have ld : ∀ j : ℤ, 0 ≤ j → j < N → fk.load ((i : ℤ) - E, j) = .ok (f (i - E) j) :=
        fun j h3 h4 => load_of2 hf ⟨by omega, by omega⟩ ⟨h3, h4⟩
      obtain ⟨d1, x1, v1⟩ := cfor_row 0 E i g (fun j large_fk =>
        large_fk.store (i, j) (f (i - E) 0 + ((j : ℝ) - E) * (f (i - E) 1 - f (i - E) 0))) c
        (fun j _ h => by rw [hc]; exact hd j (by omega)) (fun j _ h c => by
          rw [gmid _ _ (by omega) (by omega), linExtend, if_pos (by omega)]; push_cast; rfl)
      obtain ⟨d2, x2, v2⟩ := cfor_row E (E + N) i g (fun j large_fk => do
        let v ← fk.load ((i : ℤ) - E, (j : ℤ) - E)
        large_fk.store (i, j) v) d1
        (fun j _ h => by rw [v1.1, hc]; exact hd j (by omega)) (fun j h3 h4 c => by
          rw [Except.bind_ok' (ld _ (by omega) (by omega)), gmid _ _ (by omega) (by omega), linExtend,
            if_neg (by omega), if_pos (by omega)])
      obtain ⟨d3, x3, v3⟩ := cfor_row (E + N) (2 * E + N) i g (fun j large_fk =>
        large_fk.store (i, j) (f (i - E) (N - 1) + ((j : ℝ) - E - N + 1) *
          (f (i - E) (N - 1) - f (i - E) (N - 2)))) d2
        (fun j _ h => by rw [v2.1, v1.1, hc]; exact hd j (by omega)) (fun j h3 h4 c => by
          rw [gmid _ _ (by omega) (by omega), linExtend, if_neg (by omega), if_neg (by omega)]; push_cast; rfl)
      refine ⟨d3, ?_, ((v1.trans v2).trans v3).congr (fun p => ?_) fun _ _ => rfl⟩
      · unfold extrap_row
        rw [Except.bind_ok' (ld 1 (by omega) (by omega)), Except.bind_ok' (ld 0 (by omega) (by omega)),
          Except.bind_ok' (ld _ (by omega) (by omega)), Except.bind_ok' (ld _ (by omega) (by omega)),
          Except.bind_ok' x1]; beta_reduce; rw [Except.bind_ok' x2]; beta_reduce; rw [x3]
      · push_cast; omega
  have mid : ∀ (c : Buf (ℤ × ℤ) ℝ), c.dom = c1.dom →
      (∀ p : ℤ × ℤ, (∀ j ∈ upTo 0 (N + 2 * E), ¬ (p.2 = (j : ℤ) ∧ ((0 ≤ p.1 ∧ p.1 < E) ∨ (E + N ≤ p.1 ∧ p.1 < N + 2 * E))))
        → c.val p = c1.val p) → ∀ i j : ℤ, E ≤ i → i < N + E → 0 ≤ j → j < N + 2 * E →
      c.load (i, j) = .ok (linExtend (f (i - E)) N (j - E)) := by
    intro c hc hv i j h1 h2 h3 h4
    refine Buf.load_eq.2 ⟨by rw [hc, w1.1]; exact hl i j (by omega) (by omega) h3 (by omega), ?_⟩
    rw [hv (i, j) (fun k _ ⟨_, hk⟩ => by simp only at hk; omega),
      w1.2.1 (i, j) ⟨i.toNat, mem_upTo.2 (by omega), by simp; omega, h3, h4⟩, gmid i j h1 h2]
  obtain ⟨c2, e2, w2⟩ := cfor_regions (upTo 0 (N + 2 * E))
    (fun (j : ℕ) (p : ℤ × ℤ) => p.2 = (j : ℤ) ∧ ((0 ≤ p.1 ∧ p.1 < E) ∨ (E + N ≤ p.1 ∧ p.1 < N + 2 * E))) g
    (extrap_column N E) c1 fun j hj c hc hv => by
      obtain ⟨-, h2⟩ := mem_upTo.1 hj
      have hd : ∀ i : ℕ, i < N + 2 * E → c.dom (i, j) := fun i hi => by
        rw [hc, w1.1]; exact hl i j (by omega) (by omega) (by omega) (by omega)
      have ld := fun i h1 h2 => mid c hc hv i j h1 h2 (by omega) (by omega)
      obtain ⟨d1, x1, v1⟩ := cfor_column 0 E j g (fun i large_fk =>
        large_fk.store (i, j) (linExtend (f (E - E)) N (j - E) + ((i : ℝ) - E) *
          (linExtend (f (E + 1 - E)) N (j - E) - linExtend (f (E - E)) N (j - E)))) c
        (fun i _ h => hd i (by omega)) (fun i _ h c => by
          simp only [hg]
          rw [linExtend_left (fun a => linExtend (f a) N ((j : ℤ) - E)) (k := (i : ℤ) - E) (by omega)]
          simp)
      obtain ⟨d2, x2, v2⟩ := cfor_column (E + N) (2 * E + N) j g (fun i large_fk =>
        large_fk.store (i, j) (linExtend (f (E + N - 1 - E)) N (j - E) + ((i : ℝ) - E - N + 1) *
          (linExtend (f (E + N - 1 - E)) N (j - E) - linExtend (f (E + N - 2 - E)) N (j - E)))) d1
        (fun i _ h => by rw [v1.1]; exact hd i (by omega)) (fun i h3 h4 c => by
          simp only [hg]
          rw [linExtend_right (fun a => linExtend (f a) N ((j : ℤ) - E)) (k := (i : ℤ) - E) (by omega) (by omega)]
          have a1 : (E : ℤ) + N - 1 - E = N - 1 := by ring
          have a2 : (E : ℤ) + N - 2 - E = N - 2 := by ring
          rw [a1, a2]; push_cast; rfl)
      refine ⟨d2, ?_, (v1.trans v2).congr (fun p => ?_) fun _ _ => rfl⟩
      · unfold extrap_column
        rw [Except.bind_ok' (ld _ (by omega) (by omega)), Except.bind_ok' (ld _ (by omega) (by omega)),
          Except.bind_ok' (ld _ (by omega) (by omega)), Except.bind_ok' (ld _ (by omega) (by omega)),
          Except.bind_ok' x1]; beta_reduce; rw [x2]
      · push_cast; omega
  refine ⟨c2, ?_, (w1.trans w2).congr (fun p => ?_) fun _ _ => rfl⟩
  · unfold extrap_bilinear
    rw [Except.bind_ok' e1]; beta_reduce; rw [e2]
  · constructor
    · rintro (⟨i, hi, h1, h2, h3⟩ | ⟨j, hj, h1, h2⟩)
      · have := mem_upTo.1 hi
        omega
      · have := mem_upTo.1 hj
        omega
    · rintro ⟨h1, h2, h3, h4⟩
      by_cases h : (E : ℤ) ≤ p.1 ∧ p.1 < N + E
      · exact Or.inl ⟨p.1.toNat, mem_upTo.2 (by omega), by omega, h3, h4⟩
      · exact Or.inr ⟨p.2.toNat, mem_upTo.2 (by omega), by omega, by omega⟩

theorem geomExtend_left (f : ℤ → ℝ) {N k : ℤ} (h : k < 0) : geomExtend f N k = f 0 * (f 1 / f 0) ^ k := if_pos h

theorem geomExtend_right (f : ℤ → ℝ) {N k : ℤ} (h : ¬ k < 0) (h' : ¬ k < N) :
    geomExtend f N k = f (N - 1) * (f (N - 1) / f (N - 2)) ^ (k - N + 1) := by
  rw [geomExtend, if_neg h, if_neg h']

theorem log_pad_left {x y : ℝ} (hx : 0 < x) (hy : 0 < y) (j E : ℕ) :
    log_pad x y y x ((j : ℝ) - E) = .ok (x * (y / x) ^ ((j : ℤ) - E)) := by
  have : ((j : ℝ) - E) = ((j - E : ℤ) : ℝ) := by push_cast; rfl
  rw [log_pad, if_neg (not_le.2 hx), if_neg (not_lt.2 hy.le), if_neg hy.ne', this, exp_log_zpow hx (by positivity)]

theorem log_pad_right {x y : ℝ} (hx : 0 < x) (hy : 0 < y) (j E N : ℕ) :
    log_pad x y x y ((j : ℝ) - E - N + 1) = .ok (x * (x / y) ^ ((j : ℤ) - E - N + 1)) := by
  have : ((j : ℝ) - E - N + 1) = ((j - E - N + 1 : ℤ) : ℝ) := by push_cast; rfl
  rw [log_pad, if_neg (not_le.2 hx), if_neg (not_lt.2 hy.le), if_neg hy.ne', this, exp_log_zpow hx (by positivity)]

/-- **C45.** Logarithmic padding of a square table of positive samples: the samples are kept in the middle, rows and then columns are
continued as geometric progressions, every cell is written. -/
theorem C45_log_bilinear (fk large : Buf (ℤ × ℤ) ℝ) (N E : ℕ) (f : ℤ → ℤ → ℝ) (hN : 2 ≤ N)
    (hf : ∀ i j : ℤ, 0 ≤ i → i < N → 0 ≤ j → j < N → fk.dom (i, j) ∧ fk.val (i, j) = some (f i j))
    (hl : ∀ i j : ℤ, 0 ≤ i → i < N + 2 * E → 0 ≤ j → j < N + 2 * E → large.dom (i, j))
    (hp : ∀ i j : ℤ, 0 ≤ i → i < N → 0 ≤ j → j < N → 0 < f i j) :
    ∃ c, extrap_log_bilinear fk N E large = .ok c ∧
      large.Wrote (fun p => 0 ≤ p.1 ∧ p.1 < N + 2 * E ∧ 0 ≤ p.2 ∧ p.2 < N + 2 * E)
        (fun p => geomExtend (fun a => geomExtend (f a) N (p.2 - E)) N (p.1 - E)) c := by
  set g : ℤ × ℤ → ℝ := fun p => geomExtend (fun a => geomExtend (f a) N (p.2 - E)) N (p.1 - E) with hg
  have gmid : ∀ i j : ℤ, E ≤ i → i < N + E → g (i, j) = geomExtend (f (i - E)) N (j - E) := by
    intro i j h1 h2
    simp only [hg]
    rw [geomExtend, if_neg (by omega), if_pos (by omega)]
  have gp : ∀ (i k : ℤ), 0 ≤ i → i < N → 0 < geomExtend (f i) N k := by
    intro i k h1 h2
    have p := fun j h3 h4 => hp i j h1 h2 h3 h4
    have p0 := p 0 le_rfl (by omega)
    have p1 := p 1 (by omega) (by omega)
    have q1 := p (N - 1) (by omega) (by omega)
    have q2 := p (N - 2) (by omega) (by omega)
    unfold geomExtend
    split_ifs with h h'
    · positivity
    · exact p k (by omega) h'
    · positivity
  obtain ⟨c1, e1, w1⟩ := cfor_regions (upTo E (N + E))
    (fun (i : ℕ) (p : ℤ × ℤ) => p.1 = (i : ℤ) ∧ 0 ≤ p.2 ∧ p.2 < N + 2 * E) g (extrap_log_row fk N E) large fun i hi c hc _ => by
      obtain ⟨h1, h2⟩ := mem_upTo.1 hi
      have hd : ∀ j : ℕ, j < N + 2 * E → large.dom (i, j) := fun j hj => hl i j (by omega) (by omega)
        (by omega) (by omega)
      have ld : ∀ j : ℤ, 0 ≤ j → j < N → fk.load ((i : ℤ) - E, j) = .ok (f (i - E) j) :=
        fun j h3 h4 => load_of2 hf ⟨by omega, by omega⟩ ⟨h3, h4⟩
      obtain ⟨d1, x1, v1⟩ := cfor_row 0 E i g (fun j large_fk => do
        let v ← log_pad (f (i - E) 0) (f (i - E) 1) (f (i - E) 1) (f (i - E) 0) ((j : ℝ) - E)
        large_fk.store (i, j) v) c
        (fun j _ h => by rw [hc]; exact hd j (by omega)) (fun j _ h c => by
          rw [Except.bind_ok' (log_pad_left (hp _ _ (by omega) (by omega) (by omega) (by omega)) (hp _ _ (by omega) (by omega) (by omega) (by omega)) j E),
            gmid _ _ (by omega) (by omega), geomExtend, if_pos (by omega)])
      obtain ⟨d2, x2, v2⟩ := cfor_row E (E + N) i g (fun j large_fk => do
        let v ← fk.load ((i : ℤ) - E, (j : ℤ) - E)
        large_fk.store (i, j) v) d1
        (fun j _ h => by rw [v1.1, hc]; exact hd j (by omega)) (fun j h3 h4 c => by
          rw [Except.bind_ok' (ld _ (by omega) (by omega)), gmid _ _ (by omega) (by omega), geomExtend,
            if_neg (by omega), if_pos (by omega)])
      obtain ⟨d3, x3, v3⟩ := cfor_row (E + N) (2 * E + N) i g (fun j large_fk => do
        let v ← log_pad (f (i - E) (N - 1)) (f (i - E) (N - 2)) (f (i - E) (N - 1)) (f (i - E) (N - 2)) ((j : ℝ) - E - N + 1)
        large_fk.store (i, j) v) d2
        (fun j _ h => by rw [v2.1, v1.1, hc]; exact hd j (by omega)) (fun j h3 h4 c => by
          rw [Except.bind_ok' (log_pad_right (hp _ _ (by omega) (by omega) (by omega) (by omega)) (hp _ _ (by omega) (by omega) (by omega) (by omega)) j E N),
            gmid _ _ (by omega) (by omega), geomExtend, if_neg (by omega), if_neg (by omega)])
      refine ⟨d3, ?_, ((v1.trans v2).trans v3).congr (fun p => ?_) fun _ _ => rfl⟩
      · unfold extrap_log_row
        rw [Except.bind_ok' (ld 1 (by omega) (by omega)), Except.bind_ok' (ld 0 (by omega) (by omega)),
          Except.bind_ok' (ld _ (by omega) (by omega)), Except.bind_ok' (ld _ (by omega) (by omega)),
          Except.bind_ok' x1]; beta_reduce; rw [Except.bind_ok' x2]; beta_reduce; rw [x3]
      · push_cast; omega
  have mid : ∀ (c : Buf (ℤ × ℤ) ℝ), c.dom = c1.dom →
      (∀ p : ℤ × ℤ, (∀ j ∈ upTo 0 (N + 2 * E), ¬ (p.2 = (j : ℤ) ∧ ((0 ≤ p.1 ∧ p.1 < E) ∨ (E + N ≤ p.1 ∧ p.1 < N + 2 * E))))
        → c.val p = c1.val p) → ∀ i j : ℤ, E ≤ i → i < N + E → 0 ≤ j → j < N + 2 * E →
      c.load (i, j) = .ok (geomExtend (f (i - E)) N (j - E)) := by
    intro c hc hv i j h1 h2 h3 h4
    refine Buf.load_eq.2 ⟨by rw [hc, w1.1]; exact hl i j (by omega) (by omega) h3 (by omega), ?_⟩
    rw [hv (i, j) (fun k _ ⟨_, hk⟩ => by simp only at hk; omega),
      w1.2.1 (i, j) ⟨i.toNat, mem_upTo.2 (by omega), by simp; omega, h3, h4⟩, gmid i j h1 h2]
  obtain ⟨c2, e2, w2⟩ := cfor_regions (upTo 0 (N + 2 * E))
    (fun (j : ℕ) (p : ℤ × ℤ) => p.2 = (j : ℤ) ∧ ((0 ≤ p.1 ∧ p.1 < E) ∨ (E + N ≤ p.1 ∧ p.1 < N + 2 * E))) g
    (extrap_log_column N E) c1 fun j hj c hc hv => by
      obtain ⟨-, h2⟩ := mem_upTo.1 hj
      have hd : ∀ i : ℕ, i < N + 2 * E → c.dom (i, j) := fun i hi => by
        rw [hc, w1.1]; exact hl i j (by omega) (by omega) (by omega) (by omega)
      have ld := fun i h1 h2 => mid c hc hv i j h1 h2 (by omega) (by omega)
      obtain ⟨d1, x1, v1⟩ := cfor_column 0 E j g (fun i large_fk => do
        let v ← log_pad (geomExtend (f (E - E)) N (j - E)) (geomExtend (f (E + 1 - E)) N (j - E)) (geomExtend (f (E + 1 - E)) N (j - E))
          (geomExtend (f (E - E)) N (j - E)) ((i : ℝ) - E)
        large_fk.store (i, j) v) c
        (fun i _ h => hd i (by omega)) (fun i _ h c => by
          rw [Except.bind_ok' (log_pad_left (gp _ _ (by omega) (by omega)) (gp _ _ (by omega) (by omega)) i E)]
          simp only [hg]
          rw [geomExtend_left (fun a => geomExtend (f a) N ((j : ℤ) - E)) (k := (i : ℤ) - E) (by omega)]
          simp)
      obtain ⟨d2, x2, v2⟩ := cfor_column (E + N) (2 * E + N) j g (fun i large_fk => do
        let v ← log_pad (geomExtend (f (E + N - 1 - E)) N (j - E)) (geomExtend (f (E + N - 2 - E)) N (j - E))
          (geomExtend (f (E + N - 1 - E)) N (j - E)) (geomExtend (f (E + N - 2 - E)) N (j - E)) ((i : ℝ) - E - N + 1)
        large_fk.store (i, j) v) d1
        (fun i _ h => by rw [v1.1]; exact hd i (by omega)) (fun i h3 h4 c => by
          rw [Except.bind_ok' (log_pad_right (gp _ _ (by omega) (by omega)) (gp _ _ (by omega) (by omega)) i E N)]
          simp only [hg]
          rw [geomExtend_right (fun a => geomExtend (f a) N ((j : ℤ) - E)) (k := (i : ℤ) - E) (by omega) (by omega)]
          have a1 : (E : ℤ) + N - 1 - E = N - 1 := by ring
          have a2 : (E : ℤ) + N - 2 - E = N - 2 := by ring
          rw [a1, a2])
      refine ⟨d2, ?_, (v1.trans v2).congr (fun p => ?_) fun _ _ => rfl⟩
      · unfold extrap_log_column
        rw [Except.bind_ok' (ld _ (by omega) (by omega)), Except.bind_ok' (ld _ (by omega) (by omega)),
          Except.bind_ok' (ld _ (by omega) (by omega)), Except.bind_ok' (ld _ (by omega) (by omega)),
          Except.bind_ok' x1]; beta_reduce; rw [x2]
      · push_cast; omega
  refine ⟨c2, ?_, (w1.trans w2).congr (fun p => ?_) fun _ _ => rfl⟩
  · unfold extrap_log_bilinear
    rw [Except.bind_ok' e1]; beta_reduce; rw [e2]
  · constructor
    · rintro (⟨i, hi, h1, h2, h3⟩ | ⟨j, hj, h1, h2⟩)
      · have := mem_upTo.1 hi
        omega
      · have := mem_upTo.1 hj
        omega
    · rintro ⟨h1, h2, h3, h4⟩
      by_cases h : (E : ℤ) ≤ p.1 ∧ p.1 < N + E
      · exact Or.inl ⟨p.1.toNat, mem_upTo.2 (by omega), by omega, h3, h4⟩
      · exact Or.inr ⟨p.2.toNat, mem_upTo.2 (by omega), by omega, by omega⟩

/-- A zero next to a positive sample at the edge: the padded value is infinite. -/
theorem C45_log_bilinear_infinite (large : Buf (ℤ × ℤ) ℝ) :
    extrap_log_bilinear (Buf.of (fun p => 0 ≤ p.1 ∧ p.1 < 2 ∧ 0 ≤ p.2 ∧ p.2 < 2) (fun p => if p.2 = 0 then 1 else 0)) 2 1 large
      = .error .nan := by
  simp [extrap_log_bilinear, cfor, upTo, List.range', extrap_log_row, Buf.load, Buf.of, log_pad, bind, Except.bind,
    show ¬ ((1 : ℝ) ≤ 0) by norm_num]

/-- **C45.** Padding with zeros. -/
theorem C45_zeros (fk large : Buf (ℤ × ℤ) ℝ) (N E : ℕ) (f : ℤ → ℤ → ℝ)
    (hf : ∀ i j : ℤ, 0 ≤ i → i < N → 0 ≤ j → j < N → fk.dom (i, j) ∧ fk.val (i, j) = some (f i j))
    (hl : ∀ i j : ℤ, 0 ≤ i → i < N + 2 * E → 0 ≤ j → j < N + 2 * E → large.dom (i, j)) :
    ∃ c, extrap_2dzeros fk N E large = .ok c ∧
      large.Wrote (fun p => 0 ≤ p.1 ∧ p.1 < N + 2 * E ∧ 0 ≤ p.2 ∧ p.2 < N + 2 * E)
        (fun p => zeroExtend f N (p.1 - E) (p.2 - E)) c := by
  set g : ℤ × ℤ → ℝ := fun p => zeroExtend f N (p.1 - E) (p.2 - E) with hg
  have zero : ∀ i j : ℤ, ¬ (E ≤ i ∧ i < N + E ∧ E ≤ j ∧ j < N + E) → g (i, j) = 0 := fun i j h =>
    if_neg fun h' => h (by simp only at h'; omega)
  obtain ⟨c1, e1, w1⟩ := cfor_regions (upTo E (N + E))
    (fun (i : ℕ) (p : ℤ × ℤ) => p.1 = (i : ℤ) ∧ 0 ≤ p.2 ∧ p.2 < N + 2 * E) g (fun i large_fk => do
    let large_fk ← cfor (upTo 0 E) (fun j large_fk => large_fk.store (i, j) 0) large_fk
    let large_fk ← cfor (upTo E (E + N)) (fun j large_fk => do
      let v ← fk.load ((i : ℤ) - E, (j : ℤ) - E)
      large_fk.store (i, j) v) large_fk
    cfor (upTo (E + N) (2 * E + N))
      (fun j large_fk => large_fk.store (i, j) 0) large_fk) large fun i hi c hc _ => by
      obtain ⟨h1, h2⟩ := mem_upTo.1 hi
      have hd : ∀ j : ℕ, j < N + 2 * E → large.dom (i, j) := fun j hj => hl i j (by omega) (by omega)
        (by omega) (by omega)
      obtain ⟨d1, x1, v1⟩ := cfor_row 0 E i g (fun j large_fk => large_fk.store (i, j) 0) c
        (fun j _ h => by rw [hc]; exact hd j (by omega)) (fun j _ h c => by rw [zero _ _ (by omega)])
      obtain ⟨d2, x2, v2⟩ := cfor_row E (E + N) i g (fun j large_fk => do
        let v ← fk.load ((i : ℤ) - E, (j : ℤ) - E)
        large_fk.store (i, j) v) d1
        (fun j _ h => by rw [v1.1, hc]; exact hd j (by omega)) (fun j h3 h4 c => by
          rw [Except.bind_ok' (load_of2 hf ⟨by omega, by omega⟩ ⟨by omega, by omega⟩)]
          congr 1
          exact (if_pos (by simp only; omega)).symm)
      obtain ⟨d3, x3, v3⟩ := cfor_row (E + N) (2 * E + N) i g (fun j large_fk => large_fk.store (i, j) 0) d2
        (fun j _ h => by rw [v2.1, v1.1, hc]; exact hd j (by omega)) (fun j _ h c => by
          rw [zero _ _ (by omega)])
      refine ⟨d3, ?_, ((v1.trans v2).trans v3).congr (fun p => ?_) fun _ _ => rfl⟩
      · rw [Except.bind_ok' x1]; beta_reduce; rw [Except.bind_ok' x2]; beta_reduce; rw [x3]
      · push_cast; omega
  obtain ⟨c2, e2, w2⟩ := cfor_regions (upTo 0 (N + 2 * E))
    (fun (j : ℕ) (p : ℤ × ℤ) => p.2 = (j : ℤ) ∧ ((0 ≤ p.1 ∧ p.1 < E) ∨ (E + N ≤ p.1 ∧ p.1 < N + 2 * E))) g
    (fun j large_fk => do
      let large_fk ← cfor (upTo 0 E) (fun i large_fk => large_fk.store (i, j) 0) large_fk
      cfor (upTo (E + N) (2 * E + N))
        (fun i large_fk => large_fk.store (i, j) 0) large_fk) c1 fun j hj c hc hv => by
      obtain ⟨-, h2⟩ := mem_upTo.1 hj
      have hd : ∀ i : ℕ, i < N + 2 * E → c.dom (i, j) := fun i hi => by
        rw [hc, w1.1]; exact hl i j (by omega) (by omega) (by omega) (by omega)
      obtain ⟨d1, x1, v1⟩ := cfor_column 0 E j g (fun i large_fk => large_fk.store (i, j) 0) c
        (fun i _ h => hd i (by omega)) (fun i _ h c => by rw [zero _ _ (by omega)])
      obtain ⟨d2, x2, v2⟩ := cfor_column (E + N) (2 * E + N) j g (fun i large_fk => large_fk.store (i, j) 0) d1
        (fun i _ h => by rw [v1.1]; exact hd i (by omega)) (fun i h3 h4 c => by rw [zero _ _ (by omega)])
      refine ⟨d2, ?_, (v1.trans v2).congr (fun p => ?_) fun _ _ => rfl⟩
      · rw [Except.bind_ok' x1]; beta_reduce; rw [x2]
      · push_cast; omega
  refine ⟨c2, ?_, (w1.trans w2).congr (fun p => ?_) fun _ _ => rfl⟩
  · unfold extrap_2dzeros
    rw [Except.bind_ok' e1]; beta_reduce; rw [e2]
  · constructor
    · rintro (⟨i, hi, h1, h2, h3⟩ | ⟨j, hj, h1, h2⟩)
      · have := mem_upTo.1 hi
        omega
      · have := mem_upTo.1 hj
        omega
    · rintro ⟨h1, h2, h3, h4⟩
      by_cases h : (E : ℤ) ≤ p.1 ∧ p.1 < N + E
      · exact Or.inl ⟨p.1.toNat, mem_upTo.2 (by omega), by omega, h3, h4⟩
      · exact Or.inr ⟨p.2.toNat, mem_upTo.2 (by omega), by omega, by omega⟩

/-- **C45.** A spectrum without correlation between wavenumbers becomes a square table: every sample over the step on the diagonal,
zero elsewhere, every cell of the `N × N` table written and no other. -/
theorem C45_diagonal (inp : Buf ℤ ℝ) (N : ℕ) (dlnk : ℝ) (out : Buf (ℤ × ℤ) ℝ) (f : ℤ → ℝ) (hd : dlnk ≠ 0)
    (hf : ∀ i : ℤ, 0 ≤ i → i < N → inp.dom i ∧ inp.val i = some (f i))
    (ho : ∀ i j : ℤ, 0 ≤ i → i < N → 0 ≤ j → j < N → out.dom (i, j)) :
    ∃ c, mk_diag_g_to_ng inp N dlnk out = .ok c ∧
      out.Wrote (fun p => 0 ≤ p.1 ∧ p.1 < N ∧ 0 ≤ p.2 ∧ p.2 < N) (fun p => if p.1 = p.2 then f p.1 / dlnk else 0) c := by
  set g : ℤ × ℤ → ℝ := fun p => if p.1 = p.2 then f p.1 / dlnk else 0 with hg
  obtain ⟨c, e, hw⟩ := cfor_regions (upTo 0 N) (fun (i : ℕ) (p : ℤ × ℤ) => p.1 = (i : ℤ) ∧ 0 ≤ p.2 ∧ p.2 < (N : ℤ)) g (fun i out => do
    let out ← cfor (upTo 0 N) (fun j out => out.store ((i : ℤ), (j : ℤ)) 0) out
    let v ← inp.load i
    if dlnk = 0 then .error .nan else out.store ((i : ℤ), (i : ℤ)) (v / dlnk)) out fun i hi c hc _ => by
      have hi' := (mem_upTo.1 hi).2
      obtain ⟨d, ed, wd⟩ := cfor_row 0 N i (fun _ => (0 : ℝ)) (fun j out => out.store ((i : ℤ), (j : ℤ)) 0) c
        (fun j _ hj => by rw [hc]; exact ho _ _ (by omega) (by omega) (by omega) (by omega)) fun _ _ _ _ => rfl
      obtain ⟨d', ed', wd'⟩ := d.store_wrote ((i : ℤ), (i : ℤ)) g
        (by rw [wd.1, hc]; exact ho _ _ (by omega) (by omega) (by omega) (by omega))
      refine ⟨d', ?_, wd'.1.trans wd.1, fun p hp => ?_, fun p hp => ?_⟩
      · rw [ed, Except.bind_ok' rfl, Except.bind_ok' (Buf.load_eq.2 (hf i (by omega) (by omega))), if_neg hd, ← ed']
        simp only [hg, if_true]
      · by_cases h : p = ((i : ℤ), (i : ℤ))
        · exact wd'.2.1 p h
        · rw [wd'.2.2 p h, wd.2.1 p ⟨hp.1, by simpa using hp.2.1, hp.2.2⟩]
          have : ¬ p.1 = p.2 := fun h' => h (Prod.ext hp.1 (h' ▸ hp.1))
          simp only [hg, if_neg this]
      · rw [wd'.2.2 p (by rintro rfl; exact hp ⟨rfl, by omega, by simpa using hi'⟩), wd.2.2 p (fun h => hp ⟨h.1, by simpa using h.2.1, h.2.2⟩)]
  refine ⟨c, e, hw.congr (fun p => ?_) fun _ _ => rfl⟩
  constructor
  · rintro ⟨i, hi, h1, h2, h3⟩
    have := mem_upTo.1 hi
    omega
  · rintro ⟨h1, h2, h3, h4⟩
    exact ⟨p.1.toNat, mem_upTo.2 (by omega), by omega, h3, h4⟩

/-- Non-vacuity: three positive samples, two cells of padding. -/
example : ∃ (fk large : Buf ℤ ℝ) (f : ℤ → ℝ),
    (∀ i : ℤ, 0 ≤ i → i < (3 : ℕ) → fk.dom i ∧ fk.val i = some (f i)) ∧
    (∀ i : ℤ, 0 ≤ i → i < (3 : ℕ) + 2 * (2 : ℕ) → large.dom i) ∧ ∀ i : ℤ, 0 ≤ i → i < (3 : ℕ) → 0 < f i :=
  ⟨Buf.of (fun i => 0 ≤ i ∧ i < 3) (fun i => (i : ℝ) + 1), Buf.new (fun i => 0 ≤ i ∧ i < 7),
    fun i => (i : ℝ) + 1, fun i h1 h2 => ⟨⟨h1, h2⟩, if_pos ⟨h1, h2⟩⟩, fun i h1 h2 => ⟨h1, by
      have : i < 7 := by simpa using h2
      exact this⟩,
    fun i h1 _ => by
      have : (0 : ℝ) ≤ i := by exact_mod_cast h1
      linarith⟩

/-- Non-vacuity: three samples with step one half. -/
example : ((1 : ℝ) / 2 ≠ 0) ∧ ∃ (inp : Buf ℤ ℝ) (out : Buf (ℤ × ℤ) ℝ) (f : ℤ → ℝ),
    (∀ i : ℤ, 0 ≤ i → i < (3 : ℕ) → inp.dom i ∧ inp.val i = some (f i)) ∧
    ∀ i j : ℤ, 0 ≤ i → i < (3 : ℕ) → 0 ≤ j → j < (3 : ℕ) → out.dom (i, j) :=
  ⟨by norm_num, Buf.of (fun i => 0 ≤ i ∧ i < 3) (fun i => (i : ℝ) + 1), Buf.new (fun p => 0 ≤ p.1 ∧ p.1 < 3 ∧ 0 ≤ p.2 ∧ p.2 < 3),
    fun i => (i : ℝ) + 1, fun i h1 h2 => ⟨⟨h1, h2⟩, if_pos ⟨h1, h2⟩⟩, fun i j h1 h2 h3 h4 => ⟨h1, h2, h3, h4⟩⟩

/-- Non-vacuity: a table of three by three positive samples, two cells of padding. -/
example : ∃ (fk large : Buf (ℤ × ℤ) ℝ) (f : ℤ → ℤ → ℝ),
    (∀ i j : ℤ, 0 ≤ i → i < (3 : ℕ) → 0 ≤ j → j < (3 : ℕ) → fk.dom (i, j) ∧ fk.val (i, j) = some (f i j)) ∧
    (∀ i j : ℤ, 0 ≤ i → i < (3 : ℕ) + 2 * (2 : ℕ) → 0 ≤ j → j < (3 : ℕ) + 2 * (2 : ℕ) → large.dom (i, j)) ∧
    ∀ i j : ℤ, 0 ≤ i → i < (3 : ℕ) → 0 ≤ j → j < (3 : ℕ) → 0 < f i j :=
  ⟨Buf.of (fun p => 0 ≤ p.1 ∧ p.1 < 3 ∧ 0 ≤ p.2 ∧ p.2 < 3) (fun p => (p.1 : ℝ) + p.2 + 1), Buf.new (fun p => p.1 < 7 ∧ p.2 < 7),
    fun i j => (i : ℝ) + j + 1, fun i j h1 h2 h3 h4 => ⟨⟨h1, h2, h3, h4⟩, if_pos ⟨h1, h2, h3, h4⟩⟩,
    fun i j _ h2 _ h4 => ⟨by simpa using h2, by simpa using h4⟩, fun i j h1 _ h3 _ => by
      have a : (0 : ℝ) ≤ i := by exact_mod_cast h1
      have b : (0 : ℝ) ≤ j := by exact_mod_cast h3
      linarith⟩

end Coffe
