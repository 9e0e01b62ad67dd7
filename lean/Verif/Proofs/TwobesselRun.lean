import Verif.Proofs.Twobessel

/-! # Helper lemmas: runs of the two-dimensional FFTLog -/

namespace Coffe
open Classical Finset

theorem fill1 {α : Type} (n : ℕ) (g : ℕ → α) (body : ℕ → Buf ℕ α → CRes (Buf ℕ α)) (b : Buf ℕ α) (hb : b.dom = (· < n))
    (h : ∀ i < n, ∀ c : Buf ℕ α, body i c = c.store i (g i)) :
    ∃ c, cfor (upTo 0 n) body b = .ok c ∧ c.Stores (· < n) g := by
  obtain ⟨c, e, hw⟩ := cfor_regions (upTo 0 n) (fun i p => p = i) g body b fun i hi c hc _ => by
    rw [h i (mem_upTo.1 hi).2 c]
    exact c.store_wrote _ g (by rw [hc, hb]; exact (mem_upTo.1 hi).2)
  exact ⟨c, e, hw.1.trans hb, fun q hq => hw.2.1 q ⟨q, mem_upTo.2 ⟨by omega, hq⟩, rfl⟩⟩

theorem fill2 {α : Type} (n m : ℕ) (g : ℕ × ℕ → α) (body : ℕ → ℕ → Buf (ℕ × ℕ) α → CRes (Buf (ℕ × ℕ) α)) (b : Buf (ℕ × ℕ) α)
    (hb : b.dom = fun q => q.1 < n ∧ q.2 < m) (h : ∀ i < n, ∀ j < m, ∀ c : Buf (ℕ × ℕ) α, body i j c = c.store (i, j) (g (i, j))) :
    ∃ c, cfor (upTo 0 n) (fun i => cfor (upTo 0 m) (body i)) b = .ok c ∧ c.Stores (fun q => q.1 < n ∧ q.2 < m) g := by
  obtain ⟨c, e, hw⟩ := cfor_regions (upTo 0 n) (fun i p => ∃ j ∈ upTo 0 m, p = (i, j)) g (fun i => cfor (upTo 0 m) (body i)) b fun i hi c hc _ => by
    refine cfor_regions (upTo 0 m) (fun j p => p = (i, j)) g (body i) c fun j hj d hd _ => ?_
    rw [h i (mem_upTo.1 hi).2 j (mem_upTo.1 hj).2 d]
    exact d.store_wrote _ g (by rw [hd, hc, hb]; exact ⟨(mem_upTo.1 hi).2, (mem_upTo.1 hj).2⟩)
  exact ⟨c, e, hw.1.trans hb, fun q hq => hw.2.1 q ⟨q.1, mem_upTo.2 ⟨by omega, hq.1⟩, q.2, mem_upTo.2 ⟨by omega, hq.2⟩, rfl⟩⟩

/-- Two nested loops that write the transpose row by row into a flat array. -/
theorem fillFlat {α : Type} (n : ℕ) (g : ℕ → ℕ → α) (body : ℕ → ℕ → Buf ℕ α → CRes (Buf ℕ α)) (b : Buf ℕ α)
    (hb : b.dom = (· < n * n)) (h : ∀ i < n, ∀ j < n, ∀ c : Buf ℕ α, body i j c = c.store (j * n + i) (g i j)) :
    ∃ c, cfor (upTo 0 n) (fun i => cfor (upTo 0 n) (body i)) b = .ok c ∧ c.dom = (· < n * n) ∧
      ∀ i < n, ∀ j < n, c.val (j * n + i) = some (g i j) := by
  have dm : ∀ i < n, ∀ j, (j * n + i) % n = i ∧ (j * n + i) / n = j := by
    intro i hi j
    have hn : 0 < n := by omega
    constructor
    · rw [mul_comm, Nat.mul_add_mod, Nat.mod_eq_of_lt hi]
    · rw [mul_comm, Nat.mul_add_div hn, Nat.div_eq_of_lt hi, Nat.add_zero]
  have lt : ∀ i < n, ∀ j < n, j * n + i < n * n := fun i hi j hj => by
    calc j * n + i < j * n + n := by omega
      _ = (j + 1) * n := by ring
      _ ≤ n * n := Nat.mul_le_mul_right _ hj
  let g' : ℕ → α := fun q => g (q % n) (q / n)
  obtain ⟨c, e, hw⟩ := cfor_regions (upTo 0 n) (fun i p => ∃ j ∈ upTo 0 n, p = j * n + i) g' (fun i => cfor (upTo 0 n) (body i)) b fun i hi c hc _ => by
    refine cfor_regions (upTo 0 n) (fun j p => p = j * n + i) g' (body i) c fun j hj d hd _ => ?_
    have hi' := (mem_upTo.1 hi).2
    have hj' := (mem_upTo.1 hj).2
    rw [h i hi' j hj' d]
    have : g i j = g' (j * n + i) := by simp only [g', (dm i hi' j).1, (dm i hi' j).2]
    rw [this]
    exact d.store_wrote _ g' (by rw [hd, hc, hb]; exact lt i hi' j hj')
  refine ⟨c, e, hw.1.trans hb, fun i hi j hj => ?_⟩
  rw [hw.2.1 _ ⟨i, mem_upTo.2 ⟨by omega, hi⟩, j, mem_upTo.2 ⟨by omega, hj⟩, rfl⟩]
  simp only [g', (dm i hi j).1, (dm i hi j).2]

theorem pairwise_upTo (lo hi : ℕ) : (upTo lo hi).Pairwise (· ≠ ·) := nodup_upTo lo hi

/-- Two nested loops that change the cells of some rows. -/
theorem change2 {α : Type} {D : ℕ × ℕ → Prop} (lo hi m : ℕ) (T : ℕ × ℕ → α → α)
    (body : ℕ → ℕ → Buf (ℕ × ℕ) α → CRes (Buf (ℕ × ℕ) α))
    (H : ∀ i, lo ≤ i → i < hi → ∀ j < m, ∀ (b : Buf (ℕ × ℕ) α) g, b.Stores D g → ∃ b', body i j b = .ok b' ∧
      b'.Stores D (fun p => if p = (i, j) then T p (g p) else g p)) {b : Buf (ℕ × ℕ) α} {g : ℕ × ℕ → α} (h : b.Stores D g) :
    ∃ b', cfor (upTo lo hi) (fun i => cfor (upTo 0 m) (body i)) b = .ok b' ∧
      b'.Stores D (fun p => if (lo ≤ p.1 ∧ p.1 < hi) ∧ p.2 < m then T p (g p) else g p) := by
  obtain ⟨b', e, h'⟩ := Buf.Stores.loop_region (D := D) (upTo lo hi) (fun i p => ∃ j ∈ upTo 0 m, p = (i, j)) T
    (fun i => cfor (upTo 0 m) (body i))
    ((pairwise_upTo lo hi).imp fun {x y} hxy q h1 h2 => by
      obtain ⟨_, -, rfl⟩ := h1
      obtain ⟨_, -, e⟩ := h2
      exact hxy (Prod.ext_iff.1 e).1)
    (fun i hi b g hb => by
      obtain ⟨b', e, h'⟩ := Buf.Stores.loop_region (D := D) (upTo 0 m) (fun j p => p = (i, j)) T (body i)
        ((pairwise_upTo 0 m).imp fun {x y} hxy q h1 h2 => hxy (Prod.ext_iff.1 (h1.symm.trans h2)).2)
        (fun j hj b g hb => by
          obtain ⟨b', e, h'⟩ := H i (mem_upTo.1 hi).1 (mem_upTo.1 hi).2 j (mem_upTo.1 hj).2 b g hb
          exact ⟨b', e, h'.congr fun q _ => by congr⟩) hb
      exact ⟨b', e, h'.congr fun q _ => by congr⟩) h
  refine ⟨b', e, h'.congr fun q _ => ?_⟩
  have : (∃ x ∈ upTo lo hi, ∃ j ∈ upTo 0 m, q = (x, j)) ↔ (lo ≤ q.1 ∧ q.1 < hi) ∧ q.2 < m := by
    constructor
    · rintro ⟨x, hx, j, hj, rfl⟩
      exact ⟨mem_upTo.1 hx, (mem_upTo.1 hj).2⟩
    · rintro ⟨h1, h2⟩
      exact ⟨q.1, mem_upTo.2 h1, q.2, mem_upTo.2 ⟨by omega, h2⟩, rfl⟩
  simp only [this]

theorem two_sph_bessel_ok {k1 k2 r1 r2 : Buf ℕ ℝ} {fk result : Buf (ℕ × ℕ) ℝ} {K1 K2 : ℕ → ℝ} {f : ℕ × ℕ → ℝ} {N1 N2 : ℕ}
    (c : TwoBesselConfig) (hk1 : k1.Stores (· < N1) K1) (hk2 : k2.Stores (· < N2) K2)
    (hf : fk.Stores (fun q => q.1 < N1 ∧ q.2 < N2) f) (hr1 : r1.dom = (· < N1)) (hr2 : r2.dom = (· < N2))
    (hres : result.dom = fun q => q.1 < N1 ∧ q.2 < N2) (e1 : N1 % 2 = 0) (e2 : N2 % 2 = 0)
    (p1 : ⌊((N1 / 2 : ℕ) : ℝ) * c.c_window_width⌋₊ ≠ 0) (p2 : ⌊((N2 / 2 : ℕ) : ℝ) * c.c_window_width⌋₊ ≠ 0)
    (q1 : ⌊((N1 / 2 : ℕ) : ℝ) * c.c_window_width⌋₊ + 1 < N1 / 2) (q2 : ⌊((N2 / 2 : ℕ) : ℝ) * c.c_window_width⌋₊ ≤ N2 / 2) :
    ∃ s1 s2 res, two_sph_bessel k1 k2 fk N1 N2 c r1 r2 result = .ok (s1, s2, res) ∧
      s1.Stores (· < N1) (fun i => 1 / K1 (N1 - 1 - i)) ∧ s2.Stores (· < N2) (fun i => 1 / K2 (N2 - 1 - i)) ∧
      res.Stores (fun q => q.1 < N1 ∧ q.2 < N2) (fun q => twoBesselOf K1 K2 f N1 N2 c q.1 q.2) := by
  have n1 : 2 * (N1 / 2) = N1 := by omega
  have n2 : 2 * (N2 / 2) = N2 := by omega
  have P2 : 1 ≤ N2 / 2 := by omega
  obtain ⟨s1, es1, hs1⟩ := fill1 N1 (fun i => 1 / K1 (N1 - 1 - i)) (fun i r1 => do
      let k ← k1.load (N1 - 1 - i)
      r1.store i (1 / k)) r1 hr1 fun i hi b => by
    rw [hk1.load (q := N1 - 1 - i) (by omega)]; rfl
  obtain ⟨s2, es2, hs2⟩ := fill1 N2 (fun i => 1 / K2 (N2 - 1 - i)) (fun i r2 => do
      let k ← k2.load (N2 - 1 - i)
      r2.store i (1 / k)) r2 hr2 fun i hi b => by
    rw [hk2.load (q := N2 - 1 - i) (by omega)]; rfl
  obtain ⟨Pb, ePb, hPb⟩ := fill2 N1 N2 (fun q => f q / K1 q.1 ^ c.nu1 / K2 q.2 ^ c.nu2) (fun i j Pb => do
      let f ← fk.load (i, j)
      let x ← k1.load i
      let y ← k2.load j
      Pb.store (i, j) (f / x ^ c.nu1 / y ^ c.nu2)) (Buf.new fun q : ℕ × ℕ => q.1 < N1 ∧ q.2 < N2) rfl
    fun i hi j hj b => by
      rw [hf.load (q := (i, j)) ⟨hi, hj⟩, hk1.load hi, hk2.load hj]; rfl
  have h0 : (Buf.of (fun q : ℕ × ℕ => q.1 < N1 ∧ q.2 < N2 / 2 + 1) fun q =>
      r2c_2d N1 N2 (fun a b => (Pb.val (a, b)).getD 0) q.1 q.2).Stores (fun q => q.1 < 2 * (N1 / 2) ∧ q.2 < N2 / 2 + 1)
      (fun q => r2c_2d N1 N2 (fun a b => f (a, b) / K1 a ^ c.nu1 / K2 b ^ c.nu2) q.1 q.2) := by
    rw [n1]
    refine ⟨rfl, fun q hq => ?_⟩
    simp only [Buf.of, if_pos hq]
    congr 1
    refine Finset.sum_congr rfl fun a ha => Finset.sum_congr rfl fun b hb => ?_
    beta_reduce
    rw [hPb.2 (a, b) ⟨Finset.mem_range.1 ha, Finset.mem_range.1 hb⟩]; rfl
  obtain ⟨b1, eb1, hb1⟩ := c_window_2d_ok c.c_window_width (N1 / 2) (N2 / 2) h0 p1 p2 q1 q2
  let F : ℕ × ℕ → ℂ := fun q => kernelOf c.l2 c.nu2 K2 N2 q.2 * rowKernel c.l1 c.nu1 K1 N1 q.1
  let T : ℕ × ℕ → ℂ → ℂ := fun q v => (starRingEnd ℂ) (v * F q)
  obtain ⟨b2, eb2, hb2⟩ := change2 (D := fun q : ℕ × ℕ => q.1 < 2 * (N1 / 2) ∧ q.2 < N2 / 2 + 1) 0 (N1 / 2 + 1) (N2 / 2 + 1) T
    (fun i j out => do
      let v ← out.load (i, j)
      out.store (i, j) ((starRingEnd ℂ) (v * (((K2 0 * (1 / K2 (N2 - 1 - 0)) : ℝ) : ℂ) ^ (-Complex.I * etaOf K2 N2 j) * g_l c.l2 c.nu2 (etaOf K2 N2) j
        * ((K1 0 * (1 / K1 (N1 - 1 - 0)) : ℝ) : ℂ) ^ (-Complex.I * etaOf K1 N1 i) * g_l c.l1 c.nu1 (etaOf K1 N1) i))))
    (fun i _ hi j hj b g hb => by
      have hD : i < 2 * (N1 / 2) ∧ j < N2 / 2 + 1 := ⟨by omega, hj⟩
      obtain ⟨b', e, h⟩ := hb.store (q := (i, j)) hD (T (i, j) (g (i, j)))
      refine ⟨b', ?_, h.congr fun p _ => ?_⟩
      · rw [hb.load (q := (i, j)) hD, ← e]
        show b.store _ _ = b.store _ _
        congr 3
        simp only [F, kernelOf, rowKernel, Nat.sub_zero, if_pos (show i ≤ N1 / 2 by omega)]
        ring
      · by_cases e : p = (i, j)
        · subst e; simp
        · simp [e]) hb1
  obtain ⟨b3, eb3, hb3⟩ := change2 (D := fun q : ℕ × ℕ => q.1 < 2 * (N1 / 2) ∧ q.2 < N2 / 2 + 1) (N1 / 2 + 1) N1 (N2 / 2 + 1) T
    (fun i j out => do
      let v ← out.load (i, j)
      out.store (i, j) ((starRingEnd ℂ) (v * (((K2 0 * (1 / K2 (N2 - 1 - 0)) : ℝ) : ℂ) ^ (-Complex.I * etaOf K2 N2 j) * g_l c.l2 c.nu2 (etaOf K2 N2) j
        * ((K1 0 * (1 / K1 (N1 - 1 - 0)) : ℝ) : ℂ) ^ (Complex.I * etaOf K1 N1 (N1 - i)) * (starRingEnd ℂ) (g_l c.l1 c.nu1 (etaOf K1 N1) (N1 - i))))))
    (fun i hlo hi j hj b g hb => by
      have hD : i < 2 * (N1 / 2) ∧ j < N2 / 2 + 1 := ⟨by omega, hj⟩
      obtain ⟨b', e, h⟩ := hb.store (q := (i, j)) hD (T (i, j) (g (i, j)))
      refine ⟨b', ?_, h.congr fun p _ => ?_⟩
      · rw [hb.load (q := (i, j)) hD, ← e]
        show b.store _ _ = b.store _ _
        congr 3
        simp only [F, kernelOf, rowKernel, Nat.sub_zero, if_neg (show ¬ i ≤ N1 / 2 by omega)]
        ring
      · by_cases e : p = (i, j)
        · subst e; simp
        · simp [e]) hb2
  have hfin : b3.Stores (fun q => q.1 < 2 * (N1 / 2) ∧ q.2 < N2 / 2 + 1) (fun q => spectrumOf K1 K2 f N1 N2 c q.1 q.2) := by
    refine hb3.congr fun q hq => ?_
    have hq1 : q.1 < N1 := by have := hq.1; omega
    have hq2 := hq.2
    by_cases hle : q.1 ≤ N1 / 2
    · rw [if_neg (by omega), if_pos (by omega)]
      rfl
    · rw [if_pos (by omega), if_neg (by omega)]
      rfl
  obtain ⟨res, eres, hR⟩ := fill2 N1 N2 (fun q => twoBesselOf K1 K2 f N1 N2 c q.1 q.2) (fun i j result => do
      let y ← s2.load j
      let x ← s1.load i
      result.store (i, j) (c2r_2d N1 N2 (fun i j => (b3.val (i, j)).getD 0) i j * Real.pi / (16 * N1 * N2 * y ^ c.nu2 * x ^ c.nu1)))
    result hres fun i hi j hj b => by
      rw [hs2.load hj, hs1.load hi]
      show b.store _ _ = b.store _ _
      congr 1
      simp only [twoBesselOf]
      congr 2
      refine Finset.sum_congr rfl fun b hb => ?_
      congr 3
      refine Finset.sum_congr rfl fun a ha => ?_
      beta_reduce
      rw [hfin.2 (a, b) ⟨by have := Finset.mem_range.1 ha; show a < _; omega, Finset.mem_range.1 hb⟩]; rfl
  refine ⟨s1, s2, res, ?_, hs1, hs2, hR⟩
  unfold two_sph_bessel
  rw [if_neg (by omega), if_neg (by omega)]
  dsimp only
  rw [hk1.load (q := 0) (by omega), hk2.load (q := 0) (by omega), hk1.load (q := 1) (by omega), hk2.load (q := 1) (by omega)]
  simp only [bind, Except.bind] at *
  rw [es1]; dsimp only
  rw [es2]; dsimp only
  rw [hs1.load (q := 0) (by omega), hs2.load (q := 0) (by omega)]; dsimp only
  rw [ePb]; dsimp only
  rw [eb1]; dsimp only
  have hη : ∀ K N, etaOf K N = fun i : ℕ => 2 * Real.pi / Real.log (K 1 / K 0) / N * i := fun _ _ => rfl
  simp only [hη] at eb2 eb3
  rw [eb2]; dsimp only
  rw [eb3]; dsimp only
  rw [eres]
  rfl

/-- Without a cell to damp, the window divides by zero. -/
theorem two_sph_bessel_nan {k1 k2 r1 r2 : Buf ℕ ℝ} {fk result : Buf (ℕ × ℕ) ℝ} {K1 K2 : ℕ → ℝ} {f : ℕ × ℕ → ℝ} {N1 N2 : ℕ}
    (c : TwoBesselConfig) (hk1 : k1.Stores (· < N1) K1) (hk2 : k2.Stores (· < N2) K2)
    (hf : fk.Stores (fun q => q.1 < N1 ∧ q.2 < N2) f) (hr1 : r1.dom = (· < N1)) (hr2 : r2.dom = (· < N2))
    (e1 : N1 % 2 = 0) (e2 : N2 % 2 = 0) (p1 : 0 < N1) (p2 : 0 < N2)
    (q2 : ⌊((N2 / 2 : ℕ) : ℝ) * c.c_window_width⌋₊ = 0) :
    two_sph_bessel k1 k2 fk N1 N2 c r1 r2 result = .error .nan := by
  obtain ⟨s1, es1, hs1⟩ := fill1 N1 (fun i => 1 / K1 (N1 - 1 - i)) (fun i r1 => do
      let k ← k1.load (N1 - 1 - i)
      r1.store i (1 / k)) r1 hr1 fun i hi b => by
    rw [hk1.load (q := N1 - 1 - i) (by omega)]; rfl
  obtain ⟨s2, es2, hs2⟩ := fill1 N2 (fun i => 1 / K2 (N2 - 1 - i)) (fun i r2 => do
      let k ← k2.load (N2 - 1 - i)
      r2.store i (1 / k)) r2 hr2 fun i hi b => by
    rw [hk2.load (q := N2 - 1 - i) (by omega)]; rfl
  obtain ⟨Pb, ePb, hPb⟩ := fill2 N1 N2 (fun q => f q / K1 q.1 ^ c.nu1 / K2 q.2 ^ c.nu2) (fun i j Pb => do
      let f ← fk.load (i, j)
      let x ← k1.load i
      let y ← k2.load j
      Pb.store (i, j) (f / x ^ c.nu1 / y ^ c.nu2)) (Buf.new fun q : ℕ × ℕ => q.1 < N1 ∧ q.2 < N2) rfl
    fun i hi j hj b => by
      rw [hf.load (q := (i, j)) ⟨hi, hj⟩, hk1.load hi, hk2.load hj]; rfl
  unfold two_sph_bessel
  rw [if_neg (by omega), if_neg (by omega)]
  dsimp only
  rw [hk1.load (q := 0) (by omega), hk2.load (q := 0) (by omega), hk1.load (q := 1) (by omega), hk2.load (q := 1) (by omega)]
  simp only [bind, Except.bind] at *
  rw [es1]; dsimp only
  rw [es2]; dsimp only
  rw [hs1.load (q := 0) (by omega), hs2.load (q := 0) (by omega)]; dsimp only
  rw [ePb]; dsimp only
  unfold c_window_2d
  rw [q2]
  rfl

end Coffe
