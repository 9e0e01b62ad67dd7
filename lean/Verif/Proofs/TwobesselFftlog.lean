import Verif.Proofs.TwobesselRun
import Mathlib.Tactic.NormNum
import Mathlib.Tactic.FieldSimp
import Mathlib.RingTheory.RootsOfUnity.Complex
import Mathlib.Algebra.Field.GeomSum
import Mathlib.Algebra.Order.Floor.Semifield

/-! # Helper lemmas: the FFTLog of the covariance, and what its result tells about the transformed array -/

namespace Coffe
open Classical Finset

theorem floor_quarter (h : ℕ) : ⌊(h : ℝ) * 0.25⌋₊ = h / 4 := by
  have : (h : ℝ) * 0.25 = (h : ℝ) / (4 : ℕ) := by norm_num; ring
  rw [this, Nat.floor_div_eq_div]

theorem kGrid_pos {kmin kmax : ℝ} (h0 : 0 < kmin) (h1 : kmin < kmax) (N i : ℕ) : 0 < kGrid kmin kmax N i :=
  mul_pos h0 (Real.rpow_pos_of_pos (div_pos (h0.trans h1) h0) _)

theorem kGrid_lt {kmin kmax : ℝ} (h0 : 0 < kmin) (h1 : kmin < kmax) {N i j : ℕ} (hN : 0 < N) (h : i < j) :
    kGrid kmin kmax N i < kGrid kmin kmax N j := by
  refine mul_lt_mul_of_pos_left (Real.rpow_lt_rpow_of_exponent_lt ((one_lt_div h0).2 h1) ?_) h0
  have : (0 : ℝ) < N := by exact_mod_cast hN
  exact div_lt_div_of_pos_right (by exact_mod_cast h) this

/-- The separations of the grid. -/
noncomputable def rGrid (kmin kmax : ℝ) (N i : ℕ) : ℝ := 1 / kGrid kmin kmax N (N - 1 - i)

theorem rGrid_lt {kmin kmax : ℝ} (h0 : 0 < kmin) (h1 : kmin < kmax) {N i j : ℕ} (h : i < j) (hj : j < N) :
    rGrid kmin kmax N i < rGrid kmin kmax N j :=
  one_div_lt_one_div_of_lt (kGrid_pos h0 h1 _ _) (kGrid_lt h0 h1 (by omega) (by omega))

/-- The loop that fills the diagonal. -/
theorem fftlog_diagonal (P : ℝ → ℝ) (power : ℝ) (N : ℕ) (kmin kmax : ℝ) {k : Buf ℕ ℝ} (hk : k.Stores (· < N) (kGrid kmin kmax N)) :
    ∃ pk, cfor (upTo 0 N) (fun i b => do
      let b ← cfor (upTo 0 N) (fun j b => b.store (i, j) 0) b
      let x ← k.load i
      b.store (i, i) (x ^ 3 * (P x) ^ power / (Real.log (kmax / kmin) / N))) (Buf.new fun q : ℕ × ℕ => q.1 < N ∧ q.2 < N) = .ok pk ∧
      pk.Stores (fun q => q.1 < N ∧ q.2 < N) (diagonalOf P power kmin kmax N) := by
  obtain ⟨c, e, hw⟩ := cfor_regions (upTo 0 N) (fun i p => p.1 = i ∧ p.2 < N) (diagonalOf P power kmin kmax N) (fun i b => do
    let b ← cfor (upTo 0 N) (fun j b => b.store (i, j) 0) b
    let x ← k.load i
    b.store (i, i) (x ^ 3 * (P x) ^ power / (Real.log (kmax / kmin) / N))) (Buf.new fun q : ℕ × ℕ => q.1 < N ∧ q.2 < N) fun i hi c hc _ => by
      have hi' := (mem_upTo.1 hi).2
      obtain ⟨d, ed, hd⟩ := cfor_regions (upTo 0 N) (fun j p => p = (i, j)) (fun _ => (0 : ℝ)) (fun j b => b.store (i, j) 0) c
        fun j hj d hd _ => d.store_wrote (i, j) (fun _ => 0) (by rw [hd, hc]; exact ⟨hi', (mem_upTo.1 hj).2⟩)
      obtain ⟨d', ed', hd'⟩ := d.store_wrote (i, i) (diagonalOf P power kmin kmax N) (by rw [hd.1, hc]; exact ⟨hi', hi'⟩)
      refine ⟨d', ?_, hd'.1.trans hd.1, fun p hp => ?_, fun p hp => ?_⟩
      · rw [ed, hk.load hi']
        rw [← ed']
        show d.store _ _ = d.store _ _
        simp only [diagonalOf, if_true]
      · by_cases e : p = (i, i)
        · exact hd'.2.1 p e
        · rw [hd'.2.2 p e, hd.2.1 p ⟨p.2, mem_upTo.2 ⟨by omega, hp.2⟩, Prod.ext hp.1 rfl⟩, diagonalOf, if_neg]
          intro h
          exact e (Prod.ext hp.1 (h ▸ hp.1))
      · rw [hd'.2.2 p (by rintro rfl; exact hp ⟨rfl, hi'⟩), hd.2.2 p]
        rintro ⟨j, hj, rfl⟩
        exact hp ⟨rfl, (mem_upTo.1 hj).2⟩
  exact ⟨c, e, hw.1, fun q hq => hw.2.1 q ⟨q.1, mem_upTo.2 ⟨by omega, hq.1⟩, rfl, hq.2⟩⟩

/-- `covariance_integrate_fftlog` for an even number of points, at least eight: the result is the spline through the
transform on the grid. -/
theorem fftlog_ok (s : Spline2d) (P : ℝ → ℝ) (power l1 l2 : ℝ) (N : ℕ) (hN : N % 2 = 0) (h8 : 8 ≤ N) (kmin kmax : ℝ)
    {sep result : Buf ℕ ℝ} {n : ℕ} {S : ℕ → ℝ} (hS : sep.Stores (· < n) S) (hr : result.dom = (· < n * n)) :
    ∃ z : ℕ → ℝ, (∀ i < N, ∀ j < N, z (j * N + i) = nodeOf P power l1 l2 kmin kmax N i j) ∧
      ∃ x : ℕ → ℝ, (∀ i < N, x i = rGrid kmin kmax N i) ∧ ∃ y : ℕ → ℝ, (∀ i < N, y i = rGrid kmin kmax N i) ∧
      ∃ b, covariance_integrate_fftlog s P power l1 l2 N sep n kmin kmax result = .ok b ∧ b.dom = (· < n * n) ∧
        ∀ i < n, ∀ j < n, b.val (n * j + i) = some (s x y z N (S i) (S j)) := by
  obtain ⟨k, ek, hk⟩ := fill1 N (kGrid kmin kmax N) (fun i b => b.store i (kGrid kmin kmax N i)) (cmalloc N) rfl fun i hi c => rfl
  have hd := fftlog_diagonal P power N kmin kmax hk
  obtain ⟨pk, epk, hpk⟩ := hd
  obtain ⟨r1, r2, res, e3, h1, h2, h3⟩ := two_sph_bessel_ok (r1 := cmalloc N) (r2 := cmalloc N)
    (result := Buf.new fun q : ℕ × ℕ => q.1 < N ∧ q.2 < N) ⟨l1, l2, 1.01, 1.01, 0.25⟩ hk hk hpk rfl rfl rfl hN hN
    (by rw [floor_quarter]; omega) (by rw [floor_quarter]; omega) (by rw [floor_quarter]; omega) (by rw [floor_quarter]; omega)
  obtain ⟨z, ez, hzd, hz⟩ := fillFlat N (nodeOf P power l1 l2 kmin kmax N) (fun m n b => do
    let v ← res.load (m, n)
    b.store (n * N + m) v) (cmalloc (N * N)) rfl fun i hi j hj c => by
      rw [h3.load (q := (i, j)) ⟨hi, hj⟩]; rfl
  obtain ⟨b, eb, hbd, hb⟩ := fillFlat n (fun i j => s (fun i => (r1.val i).getD 0) (fun i => (r2.val i).getD 0)
      (fun i => (z.val i).getD 0) N (S i) (S j)) (fun m m' b => do
    let x ← sep.load m
    let y ← sep.load m'
    b.store (n * m' + m) (s (fun i => (r1.val i).getD 0) (fun i => (r2.val i).getD 0) (fun i => (z.val i).getD 0) N x y))
    result hr fun i hi j hj c => by
      rw [hS.load hi, hS.load hj, mul_comm j n]; rfl
  refine ⟨fun i => (z.val i).getD 0, fun i hi j hj => by beta_reduce; rw [hz i hi j hj]; rfl,
    fun i => (r1.val i).getD 0, fun i hi => by beta_reduce; rw [h1.2 i hi]; rfl,
    fun i => (r2.val i).getD 0, fun i hi => by beta_reduce; rw [h2.2 i hi]; rfl, b, ?_, hbd, fun i hi j hj => by rw [mul_comm n j]; exact hb i hi j hj⟩
  unfold covariance_integrate_fftlog
  dsimp only
  have hkg : (fun (i : ℕ) (b : Buf ℕ ℝ) => b.store i (kmin * (kmax / kmin) ^ ((i : ℝ) / N))) = fun i b => b.store i (kGrid kmin kmax N i) := rfl
  rw [hkg, ek]
  simp only [bind, Except.bind] at *
  rw [epk]; dsimp only
  rw [e3]; dsimp only
  rw [ez]; dsimp only
  exact eb

/-! ## Characters -/

theorem twiddle_add (N : ℕ) (s t : ℤ) : twiddle N (s + t) = twiddle N s * twiddle N t := by
  rw [twiddle, twiddle, twiddle, ← Complex.exp_add]
  congr 1; push_cast; ring

theorem twiddle_zero (N : ℕ) : twiddle N 0 = 1 := by simp [twiddle]

theorem twiddle_conj (N : ℕ) (t : ℤ) : (starRingEnd ℂ) (twiddle N t) = twiddle N (-t) := by
  rw [twiddle, twiddle, ← Complex.exp_conj]
  congr 1
  have : (starRingEnd ℂ) 2 = 2 := Complex.conj_ofNat 2
  simp [Complex.conj_ofReal, this]

theorem twiddle_zpow (N : ℕ) (t : ℤ) : twiddle N t = Complex.exp (2 * Real.pi * Complex.I / N) ^ t := by
  rw [twiddle, ← Complex.exp_int_mul]
  congr 1; ring

theorem twiddle_eq_one {N : ℕ} (hN : N ≠ 0) (t : ℤ) : twiddle N t = 1 ↔ (N : ℤ) ∣ t := by
  rw [twiddle_zpow]
  exact (Complex.isPrimitiveRoot_exp N hN).zpow_eq_one_iff_dvd t

theorem twiddle_mul_nat (N : ℕ) (t : ℤ) (b : ℕ) : twiddle N (b * t) = twiddle N t ^ b := by
  rw [twiddle, twiddle, ← Complex.exp_nat_mul]
  congr 1; push_cast; ring

theorem sum_twiddle {N : ℕ} (hN : N ≠ 0) (t : ℤ) :
    ∑ b ∈ range N, twiddle N (b * t) = if (N : ℤ) ∣ t then (N : ℂ) else 0 := by
  simp only [twiddle_mul_nat]
  by_cases h : (N : ℤ) ∣ t
  · rw [if_pos h, (twiddle_eq_one hN t).2 h]; simp
  · rw [if_neg h, geom_sum_eq (fun e => h ((twiddle_eq_one hN t).1 e)), ← twiddle_mul_nat,
      (twiddle_eq_one hN _).2 (Dvd.intro t rfl), sub_self, zero_div]

/-- The transform of the real array gives back the columns that stand for two frequencies. -/
theorem forward_c2r {N : ℕ} (h : 0 < N) (H : ℕ → ℕ → ℂ) (m n : ℕ) (hm : m < N) (hn : 0 < n) (hn' : n < N / 2) :
    r2c_2d N N (fun a b => c2r_2d N N H a b) m n = (N : ℂ) ^ 2 * H m n := by
  have hN : N ≠ 0 := by omega
  -- column sums
  let X : ℕ → ℕ → ℂ := fun a j => ∑ i ∈ range N, H i j * twiddle N (a * i)
  have hre : ∀ z : ℂ, ((z.re : ℝ) : ℂ) = (z + (starRingEnd ℂ) z) / 2 := fun z => by
    rw [Complex.re_eq_add_conj]
  have hcol : ∀ a, ∑ b ∈ range N, ((c2r_2d N N H a b : ℝ) : ℂ) * twiddle N (-(b * n)) = N * X a n := by
    intro a
    have step : ∀ b ∈ range N, ((c2r_2d N N H a b : ℝ) : ℂ) * twiddle N (-(b * n))
        = ∑ j ∈ range (N / 2 + 1), (if j = 0 ∨ j = N / 2 then (1 : ℂ) else 2) / 2 *
          (X a j * twiddle N (b * ((j : ℤ) - n)) + (starRingEnd ℂ) (X a j) * twiddle N (b * (-(j : ℤ) - n))) := by
      intro b _
      rw [c2r_2d, Complex.ofReal_sum, Finset.sum_mul]
      refine Finset.sum_congr rfl fun j _ => ?_
      have e1 : twiddle N (b * ((j : ℤ) - n)) = twiddle N (b * j) * twiddle N (-(b * n)) := by
        rw [← twiddle_add]; congr 1; ring
      have e2 : twiddle N (b * (-(j : ℤ) - n)) = twiddle N (-(b * j)) * twiddle N (-(b * n)) := by
        rw [← twiddle_add]; congr 1; ring
      rw [Complex.ofReal_mul, hre, map_mul, twiddle_conj, e1, e2]
      have e3 : (((if j = 0 ∨ j = N / 2 then 1 else 2 : ℝ) : ℝ) : ℂ) = if j = 0 ∨ j = N / 2 then (1 : ℂ) else 2 := by
        split_ifs <;> simp
      rw [e3]
      simp only [X]
      ring
    rw [Finset.sum_congr rfl step, Finset.sum_comm]
    have inner : ∀ j ∈ range (N / 2 + 1), ∑ b ∈ range N, (if j = 0 ∨ j = N / 2 then (1 : ℂ) else 2) / 2 *
          (X a j * twiddle N (b * ((j : ℤ) - n)) + (starRingEnd ℂ) (X a j) * twiddle N (b * (-(j : ℤ) - n)))
        = if j = n then N * X a n else 0 := by
      intro j hj
      have hj' := Finset.mem_range.1 hj
      rw [← Finset.mul_sum, Finset.sum_add_distrib, ← Finset.mul_sum, ← Finset.mul_sum, sum_twiddle hN, sum_twiddle hN]
      have h2 : ¬ (N : ℤ) ∣ -(j : ℤ) - n := by
        rintro ⟨c, hc⟩
        have hc0 : c < 0 := by
          by_contra h; push Not at h
          have : 0 ≤ (N : ℤ) * c := mul_nonneg (by omega) h
          omega
        have hc1 : c ≤ -1 := by omega
        have : (N : ℤ) * c ≤ N * (-1) := mul_le_mul_of_nonneg_left hc1 (by omega)
        omega
      rw [if_neg h2, mul_zero, add_zero]
      by_cases e : j = n
      · subst e
        rw [if_pos rfl, if_pos (show (N : ℤ) ∣ (j : ℤ) - j by simp), if_neg (show ¬ (j = 0 ∨ j = N / 2) by omega)]; ring
      · have h1 : ¬ (N : ℤ) ∣ (j : ℤ) - n := by
          intro hd
          have := Int.eq_zero_of_abs_lt_dvd hd (by rw [abs_lt]; omega)
          omega
        rw [if_neg e, if_neg h1, mul_zero, mul_zero]
    rw [Finset.sum_congr rfl inner, Finset.sum_ite_eq' (range (N / 2 + 1)) n, if_pos (Finset.mem_range.2 (by omega))]
  have hrow : ∀ a ∈ range N, ∑ b ∈ range N, ((c2r_2d N N H a b : ℝ) : ℂ) * twiddle N (-(a * m)) * twiddle N (-(b * n))
      = ∑ i ∈ range N, N * H i n * twiddle N (a * ((i : ℤ) - m)) := by
    intro a _
    have : ∀ b ∈ range N, ((c2r_2d N N H a b : ℝ) : ℂ) * twiddle N (-(a * m)) * twiddle N (-(b * n))
        = twiddle N (-(a * m)) * (((c2r_2d N N H a b : ℝ) : ℂ) * twiddle N (-(b * n))) := fun b _ => by ring
    rw [Finset.sum_congr rfl this, ← Finset.mul_sum, hcol a]
    simp only [X, Finset.mul_sum]
    refine Finset.sum_congr rfl fun i _ => ?_
    have e : twiddle N (a * ((i : ℤ) - m)) = twiddle N (a * i) * twiddle N (-(a * m)) := by
      rw [← twiddle_add]; congr 1; ring
    rw [e]; ring
  rw [r2c_2d, Finset.sum_congr rfl hrow, Finset.sum_comm]
  have fin : ∀ i ∈ range N, ∑ a ∈ range N, N * H i n * twiddle N (a * ((i : ℤ) - m)) = if i = m then (N : ℂ) ^ 2 * H m n else 0 := by
    intro i hi
    have hi' := Finset.mem_range.1 hi
    rw [← Finset.mul_sum, sum_twiddle hN]
    by_cases e : i = m
    · subst e; rw [if_pos (show (N : ℤ) ∣ (i : ℤ) - i by simp), if_pos rfl]; ring
    · have h1 : ¬ (N : ℤ) ∣ (i : ℤ) - m := by
        intro hd
        have := Int.eq_zero_of_abs_lt_dvd hd (by rw [abs_lt]; omega)
        omega
      rw [if_neg h1, if_neg e, mul_zero]
  rw [Finset.sum_congr rfl fin, Finset.sum_ite_eq' (range N) m, if_pos (Finset.mem_range.2 hm)]

/-- The transform of a real array at the opposite frequency is the conjugate. -/
theorem r2c_conj {N : ℕ} (hN : N ≠ 0) (x : ℕ → ℕ → ℝ) {m n m' n' : ℕ} (hm : m + m' = N) (hn : n + n' = N) :
    r2c_2d N N x m n = (starRingEnd ℂ) (r2c_2d N N x m' n') := by
  have key : ∀ a i i' : ℕ, i + i' = N → twiddle N (-(a * i)) = (starRingEnd ℂ) (twiddle N (-(a * i'))) := by
    intro a i i' h
    rw [twiddle_conj]
    have : (-(a * i) : ℤ) = - -(a * i') + N * (-a) := by
      have : (i : ℤ) = N - i' := by omega
      rw [this]; ring
    rw [this, twiddle_add, (twiddle_eq_one hN _).2 (Dvd.intro _ rfl), mul_one]
  simp only [r2c_2d, map_sum, map_mul, Complex.conj_ofReal]
  refine Finset.sum_congr rfl fun a _ => Finset.sum_congr rfl fun b _ => ?_
  rw [key a m m' hm, key b n n' hn]

/-- The transform of a symmetric array is symmetric. -/
theorem r2c_symm {N : ℕ} (x : ℕ → ℕ → ℝ) (h : ∀ a < N, ∀ b < N, x a b = x b a) (m n : ℕ) :
    r2c_2d N N x m n = r2c_2d N N x n m := by
  rw [r2c_2d, r2c_2d, Finset.sum_comm]
  refine Finset.sum_congr rfl fun b hb => Finset.sum_congr rfl fun a ha => ?_
  rw [h a (Finset.mem_range.1 ha) b (Finset.mem_range.1 hb)]
  ring

/-- If the result is symmetric, the array before the back transform vanishes at `(N - 1, N / 2 - 1)` or does not vanish
at `(N / 2 + 1, 1)`. -/
theorem symmetric_cells {N : ℕ} (hN : N % 2 = 0) (h6 : 6 ≤ N) (H : ℕ → ℕ → ℂ)
    (hs : ∀ a < N, ∀ b < N, c2r_2d N N H a b = c2r_2d N N H b a) :
    H (N / 2 + 1) 1 = (starRingEnd ℂ) (H (N - 1) (N / 2 - 1)) := by
  have h1 := forward_c2r (N := N) (by omega) H (N / 2 + 1) 1 (by omega) (by omega) (by omega)
  have h2 := forward_c2r (N := N) (by omega) H (N - 1) (N / 2 - 1) (by omega) (by omega) (by omega)
  have h3 := r2c_symm (fun a b => c2r_2d N N H a b) hs (N / 2 + 1) 1
  have h4 := r2c_conj (N := N) (by omega) (fun a b => c2r_2d N N H a b) (m := 1) (n := N / 2 + 1) (m' := N - 1) (n' := N / 2 - 1)
    (by omega) (by omega)
  rw [h1] at h3
  rw [h2, map_mul] at h4
  rw [h4] at h3
  have hne : (N : ℂ) ^ 2 ≠ 0 := by
    have : (N : ℂ) ≠ 0 := by exact_mod_cast (by omega : N ≠ 0)
    exact pow_ne_zero _ this
  have : (starRingEnd ℂ) ((N : ℂ) ^ 2) = (N : ℂ) ^ 2 := by simp
  rw [this] at h3
  exact mul_left_cancel₀ hne h3

end Coffe
