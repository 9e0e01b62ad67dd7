import Verif.Spec.Twobessel
import Verif.Proofs.CMem
import Mathlib.Tactic.Ring
import Mathlib.Tactic.Linarith

/-! # Helper lemmas: the two-dimensional FFTLog -/

namespace Coffe
open Classical Finset

variable {ι α κ : Type}

theorem Buf.Stores.load {b : Buf ι α} {D : ι → Prop} {g : ι → α} (h : b.Stores D g) {q : ι} (hq : D q) :
    b.load q = .ok (g q) := Buf.load_eq.2 ⟨by rw [h.1]; exact hq, h.2 q hq⟩

theorem Buf.Stores.store [DecidableEq ι] {b : Buf ι α} {D : ι → Prop} {g : ι → α} (h : b.Stores D g) {q : ι} (hq : D q) (v : α) :
    ∃ b', b.store q v = .ok b' ∧ b'.Stores D (fun p => if p = q then v else g p) := by
  refine ⟨⟨b.dom, @Function.update _ _ (fun a b => Classical.propDecidable (a = b)) b.val q (some v)⟩,
    by rw [Buf.store, if_pos (by rw [h.1]; exact hq)], h.1, fun p hp => ?_⟩
  dsimp only
  by_cases e : p = q
  · subst e; rw [if_pos rfl]; exact @Function.update_self _ _ (fun a b => Classical.propDecidable (a = b)) _ _ _
  · rw [if_neg e, ← h.2 p hp]; exact @Function.update_of_ne _ _ (fun a b => Classical.propDecidable (a = b)) _ _ e _ _

theorem Buf.Stores.congr {b : Buf ι α} {D : ι → Prop} {g g' : ι → α} (h : b.Stores D g) (e : ∀ q, D q → g q = g' q) :
    b.Stores D g' := ⟨h.1, fun q hq => by rw [h.2 q hq, e q hq]⟩

theorem Buf.Stores.scale [DecidableEq ι] {b : Buf ι ℂ} {D : ι → Prop} {g : ι → ℂ} (h : b.Stores D g) {q : ι} (hq : D q) (w : ℂ) :
    ∃ b', b.scale q w = .ok b' ∧ b'.Stores D (fun p => g p * if p = q then w else 1) := by
  obtain ⟨b', e, h'⟩ := h.store hq (g q * w)
  refine ⟨b', ?_, h'.congr fun p _ => ?_⟩
  · show (b.load q >>= fun v => b.store q (v * w)) = _
    rw [h.load hq]; exact e
  · by_cases e : p = q
    · subst e; simp
    · simp [e]

/-- A loop whose body changes the contents by `F x`. -/
theorem Buf.Stores.loop {D : ι → Prop} (xs : List κ) (F : κ → (ι → α) → ι → α) (body : κ → Buf ι α → CRes (Buf ι α))
    (H : ∀ x ∈ xs, ∀ (b : Buf ι α) g, b.Stores D g → ∃ b', body x b = .ok b' ∧ b'.Stores D (F x g)) :
    ∀ {b : Buf ι α} {g : ι → α}, b.Stores D g → ∃ b', cfor xs body b = .ok b' ∧
      b'.Stores D (xs.foldl (fun g x => F x g) g) := by
  induction xs with
  | nil => exact fun {b g} h => ⟨b, rfl, h⟩
  | cons x xs ih =>
    intro b g h
    obtain ⟨b', e, h'⟩ := H x (by simp) b g h
    obtain ⟨b'', e', h''⟩ := ih (fun y hy => H y (by simp [hy])) h'
    exact ⟨b'', by simp only [cfor, e]; exact e', h''⟩

theorem foldl_mul (xs : List κ) (w : κ → ι → ℂ) (g : ι → ℂ) (q : ι) :
    xs.foldl (fun g x => fun q => g q * w x q) g q = g q * (xs.map (w · q)).prod := by
  induction xs generalizing g with
  | nil => simp
  | cons x xs ih => rw [List.foldl_cons, ih, List.map_cons, List.prod_cons, mul_assoc]

/-- A loop whose body multiplies the contents. -/
theorem Buf.Stores.loop_mul {D : ι → Prop} (xs : List κ) (w : κ → ι → ℂ) (body : κ → Buf ι ℂ → CRes (Buf ι ℂ))
    (H : ∀ x ∈ xs, ∀ (b : Buf ι ℂ) g, b.Stores D g → ∃ b', body x b = .ok b' ∧ b'.Stores D (fun q => g q * w x q))
    {b : Buf ι ℂ} {g : ι → ℂ} (h : b.Stores D g) :
    ∃ b', cfor xs body b = .ok b' ∧ b'.Stores D (fun q => g q * (xs.map (w · q)).prod) := by
  obtain ⟨b', e, h'⟩ := Buf.Stores.loop xs (fun x g q => g q * w x q) body H h
  exact ⟨b', e, h'.congr fun q _ => foldl_mul xs w g q⟩

theorem foldl_region (xs : List κ) (R : κ → ι → Prop) (T : ι → α → α) (hd : xs.Pairwise fun x y => ∀ q, R x q → ¬ R y q)
    (g : ι → α) (q : ι) :
    xs.foldl (fun g x => fun q => if R x q then T q (g q) else g q) g q = if ∃ x ∈ xs, R x q then T q (g q) else g q := by
  induction xs generalizing g with
  | nil => simp
  | cons x xs ih =>
    rw [List.foldl_cons, ih (List.pairwise_cons.1 hd).2]
    by_cases hx : R x q
    · have : ¬ ∃ y ∈ xs, R y q := fun ⟨y, hy, hr⟩ => (List.pairwise_cons.1 hd).1 y hy q hx hr
      rw [if_neg this, if_pos hx, if_pos ⟨x, by simp, hx⟩]
    · have : (∃ y ∈ x :: xs, R y q) ↔ ∃ y ∈ xs, R y q := by simp [hx]
      simp only [if_neg hx, this]

/-- A loop whose passes change separate regions. -/
theorem Buf.Stores.loop_region {D : ι → Prop} (xs : List κ) (R : κ → ι → Prop) (T : ι → α → α)
    (body : κ → Buf ι α → CRes (Buf ι α)) (hd : xs.Pairwise fun x y => ∀ q, R x q → ¬ R y q)
    (H : ∀ x ∈ xs, ∀ (b : Buf ι α) g, b.Stores D g → ∃ b', body x b = .ok b' ∧
      b'.Stores D (fun q => if R x q then T q (g q) else g q)) {b : Buf ι α} {g : ι → α} (h : b.Stores D g) :
    ∃ b', cfor xs body b = .ok b' ∧ b'.Stores D (fun q => if ∃ x ∈ xs, R x q then T q (g q) else g q) := by
  obtain ⟨b', e, h'⟩ := Buf.Stores.loop xs (fun x g q => if R x q then T q (g q) else g q) body H h
  exact ⟨b', e, h'.congr fun q _ => foldl_region xs R T hd g q⟩

theorem prod_one_hit (n : ℕ) (idx : ℕ → ℕ) (w : ℕ → ℂ) (q : ℕ) (hinj : ∀ x < n, ∀ y < n, idx x = idx y → x = y) (x : ℕ)
    (hx : x < n) (e : idx x = q) : ((upTo 0 n).map fun y => if q = idx y then w y else 1).prod = w x := by
  rw [List.prod_map_eq_pow_single x, List.count_eq_one_of_mem (nodup_upTo _ _) (mem_upTo.2 ⟨by omega, hx⟩), if_pos e.symm, pow_one]
  intro y hy hm
  rw [if_neg]
  intro h
  exact hy (hinj y (mem_upTo.1 hm).2 x hx (by rw [← h, e]))

theorem prod_no_hit (n : ℕ) (idx : ℕ → ℕ) (w : ℕ → ℂ) (q : ℕ) (h : ∀ x < n, q ≠ idx x) :
    ((upTo 0 n).map fun y => if q = idx y then w y else 1).prod = 1 := by
  refine List.prod_eq_one fun z hz => ?_
  obtain ⟨y, hy, rfl⟩ := List.mem_map.1 hz
  exact if_neg (h y (mem_upTo.1 hy).2)

/-- The value of `W`. -/
noncomputable def wValue (j n : ℕ) : ℝ := (j : ℝ) / n - 1 / (2 * Real.pi) * Real.sin (2 * j * Real.pi / n)

theorem taper_of_le {n d : ℕ} (h : d ≤ n) : taper n d = wValue d n := by
  rw [taper, if_pos h, wValue, one_div, inv_mul_eq_div]
  congr 3; ring

theorem taper_of_gt {n d : ℕ} (h : n < d) : taper n d = 1 := if_neg (by omega)

/-- The window, for cuts that are positive and leave room. -/
theorem c_window_2d_ok {b : Buf (ℕ × ℕ) ℂ} {g : ℕ × ℕ → ℂ} (w : ℝ) (h1 h2 : ℕ)
    (hb : b.Stores (fun q => q.1 < 2 * h1 ∧ q.2 < h2 + 1) g) (p1 : ⌊(h1 : ℝ) * w⌋₊ ≠ 0) (p2 : ⌊(h2 : ℝ) * w⌋₊ ≠ 0)
    (r1 : ⌊(h1 : ℝ) * w⌋₊ + 1 < h1) (r2 : ⌊(h2 : ℝ) * w⌋₊ ≤ h2) :
    ∃ b', c_window_2d b w h1 h2 = .ok b' ∧ b'.Stores (fun q => q.1 < 2 * h1 ∧ q.2 < h2 + 1)
      (fun q => g q * (taper ⌊(h2 : ℝ) * w⌋₊ (h2 - q.2) * rowTaper ⌊(h1 : ℝ) * w⌋₊ h1 q.1 : ℝ)) := by
  unfold c_window_2d
  dsimp only
  generalize ⌊(h1 : ℝ) * w⌋₊ = n1 at *
  generalize ⌊(h2 : ℝ) * w⌋₊ = n2 at *
  have W : ∀ j n, n ≠ 0 → window_W j n = .ok (wValue j n) := fun j n h => by rw [window_W, if_neg h, wValue]
  obtain ⟨b1, e1, H1⟩ := Buf.Stores.loop_mul (D := fun q : ℕ × ℕ => q.1 < 2 * h1 ∧ q.2 < h2 + 1) (upTo 0 (n2 + 1))
    (fun j q => if q.2 = h2 - j then (wValue j n2 : ℂ) else 1)
    (fun j out => do
      let W ← window_W j n2
      cfor (upTo 0 (2 * h1)) (fun i out => out.scale (i, h2 - j) W) out) (by
    intro j hj b g hb
    rw [W j n2 p2]
    obtain ⟨b', e, h⟩ := Buf.Stores.loop_mul (upTo 0 (2 * h1)) (fun i q => if q = (i, h2 - j) then (wValue j n2 : ℂ) else 1)
      (fun i out => out.scale (i, h2 - j) (wValue j n2 : ℝ)) (fun i hi b g hb =>
        hb.scale (q := (i, h2 - j)) ⟨(mem_upTo.1 hi).2, by have := (mem_upTo.1 hj).2; omega⟩ _) hb
    refine ⟨b', e, h.congr fun q hq => ?_⟩
    congr 1
    by_cases hc : q.2 = h2 - j
    · rw [if_pos hc]
      refine Eq.trans (congrArg _ ?_) (prod_one_hit (2 * h1) id (fun _ => (wValue j n2 : ℂ)) q.1 (fun _ _ _ _ h => h) q.1 hq.1 rfl)
      refine List.map_congr_left fun i _ => ?_
      have : q = (i, h2 - j) ↔ q.1 = id i := by rw [Prod.ext_iff]; simp [hc]
      simp only [this]
    · rw [if_neg hc]
      refine List.prod_eq_one fun z hz => ?_
      obtain ⟨y, -, rfl⟩ := List.mem_map.1 hz
      exact if_neg fun h => hc (by rw [h])) hb
  obtain ⟨b2, e2, H2⟩ := Buf.Stores.loop_mul (D := fun q : ℕ × ℕ => q.1 < 2 * h1 ∧ q.2 < h2 + 1) (upTo 0 (n1 + 1))
    (fun i q => (if q.1 = h1 - i then (wValue i n1 : ℂ) else 1) * (if q.1 = h1 + 1 + i then (wValue i n1 : ℂ) else 1))
    (fun i out => do
      let W ← window_W i n1
      cfor (upTo 0 (h2 + 1)) (fun j out => do
        let out ← out.scale (h1 - i, j) W
        out.scale (h1 + 1 + i, j) W) out) (by
    intro i hi b g hb
    have hi' := (mem_upTo.1 hi).2
    rw [W i n1 p1]
    obtain ⟨b', e, h⟩ := Buf.Stores.loop_mul (upTo 0 (h2 + 1))
      (fun j q => (if q = (h1 - i, j) then (wValue i n1 : ℂ) else 1) * (if q = (h1 + 1 + i, j) then (wValue i n1 : ℂ) else 1))
      (fun j out => do
        let out ← out.scale (h1 - i, j) (wValue i n1 : ℝ)
        out.scale (h1 + 1 + i, j) (wValue i n1 : ℝ)) (fun j hj b g hb => by
          have hj' := (mem_upTo.1 hj).2
          obtain ⟨b1, e1, h1'⟩ := hb.scale (q := (h1 - i, j)) ⟨by show _ < _; omega, hj'⟩ (wValue i n1 : ℂ)
          obtain ⟨b2, e2, h2'⟩ := h1'.scale (q := (h1 + 1 + i, j)) ⟨by show _ < _; omega, hj'⟩ (wValue i n1 : ℂ)
          refine ⟨b2, ?_, h2'.congr fun q _ => by rw [mul_assoc]⟩
          show (b.scale _ _ >>= fun b => b.scale _ _) = _
          rw [e1]; exact e2) hb
    refine ⟨b', e, h.congr fun q hq => ?_⟩
    congr 1
    rw [List.prod_map_mul]
    have key : ∀ r, ((upTo 0 (h2 + 1)).map fun j => if q = (r, j) then (wValue i n1 : ℂ) else 1).prod
        = if q.1 = r then (wValue i n1 : ℂ) else 1 := by
      intro r
      by_cases hc : q.1 = r
      · rw [if_pos hc]
        refine Eq.trans (congrArg _ ?_) (prod_one_hit (h2 + 1) id (fun _ => (wValue i n1 : ℂ)) q.2 (fun _ _ _ _ h => h) q.2 hq.2 rfl)
        refine List.map_congr_left fun j _ => ?_
        have : q = (r, j) ↔ q.2 = id j := by rw [Prod.ext_iff]; simp [hc]
        simp only [this]
      · rw [if_neg hc]
        refine List.prod_eq_one fun z hz => ?_
        obtain ⟨y, -, rfl⟩ := List.mem_map.1 hz
        exact if_neg fun h => hc (by rw [h])
    rw [key, key]) H1
  refine ⟨b2, ?_, H2.congr fun q hq => ?_⟩
  · show (cfor _ _ _ >>= fun b => cfor _ _ _) = _
    rw [e1]; exact e2
  · rw [mul_assoc]
    congr 1
    rw [Complex.ofReal_mul, List.prod_map_mul]
    congr 1
    · by_cases hc : h2 - q.2 ≤ n2
      · rw [taper_of_le hc]
        exact prod_one_hit (n2 + 1) (fun j => h2 - j) (fun j => (wValue j n2 : ℂ)) q.2 (fun x hx y hy h => by omega)
          (h2 - q.2) (by omega) (by have := hq.2; omega)
      · rw [taper_of_gt (by omega)]
        exact prod_no_hit (n2 + 1) (fun j => h2 - j) (fun j => (wValue j n2 : ℂ)) q.2 (fun x hx => by omega)
    · unfold rowTaper
      by_cases hle : q.1 ≤ h1
      · rw [if_pos hle, prod_no_hit (n1 + 1) (fun i => h1 + 1 + i) (fun j => (wValue j n1 : ℂ)) q.1 (fun x hx => by omega), mul_one]
        by_cases hc : h1 - q.1 ≤ n1
        · rw [taper_of_le hc]
          exact prod_one_hit (n1 + 1) (fun j => h1 - j) (fun j => (wValue j n1 : ℂ)) q.1 (fun x hx y hy h => by omega)
            (h1 - q.1) (by omega) (by omega)
        · rw [taper_of_gt (by omega)]
          exact prod_no_hit (n1 + 1) (fun j => h1 - j) (fun j => (wValue j n1 : ℂ)) q.1 (fun x hx => by omega)
      · rw [if_neg hle, prod_no_hit (n1 + 1) (fun i => h1 - i) (fun j => (wValue j n1 : ℂ)) q.1 (fun x hx => by omega), one_mul]
        by_cases hc : q.1 - h1 - 1 ≤ n1
        · rw [taper_of_le hc]
          exact prod_one_hit (n1 + 1) (fun j => h1 + 1 + j) (fun j => (wValue j n1 : ℂ)) q.1 (fun x hx y hy h => by omega)
            (q.1 - h1 - 1) (by omega) (by omega)
        · rw [taper_of_gt (by omega)]
          exact prod_no_hit (n1 + 1) (fun j => h1 + 1 + j) (fun j => (wValue j n1 : ℂ)) q.1 (fun x hx => by omega)

end Coffe
