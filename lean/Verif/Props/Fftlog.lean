import Verif.Proofs.TwobesselFftlog
import Verif.Props.Covariance

/-!
# C60–C62 and C23 for the FFTLog integration of the covariance
-/

namespace Coffe
open Classical Finset

/-! ## C60: which numbers of sampling points work -/

theorem stores_of {ι α : Type} (D : ι → Prop) (g : ι → α) : (Buf.of D g).Stores D g :=
  ⟨rfl, fun q hq => by simp [Buf.of, hq]⟩

/-- Everything up to the call of `two_sph_bessel`. -/
theorem fftlog_input (s : Spline2d) (P : ℝ → ℝ) (power l1 l2 : ℝ) (N : ℕ) (kmin kmax : ℝ) (sep result : Buf ℕ ℝ) (n : ℕ) :
    ∃ k pk f, k.Stores (· < N) (kGrid kmin kmax N) ∧ pk.Stores (fun q => q.1 < N ∧ q.2 < N) f ∧
      ∀ e, two_sph_bessel k k pk N N ⟨l1, l2, 1.01, 1.01, 0.25⟩ (cmalloc N) (cmalloc N)
          (Buf.new fun q : ℕ × ℕ => q.1 < N ∧ q.2 < N) = .error e →
        covariance_integrate_fftlog s P power l1 l2 N sep n kmin kmax result = .error e := by
  obtain ⟨k, ek, hk⟩ := fill1 N (kGrid kmin kmax N) (fun i b => b.store i (kGrid kmin kmax N i)) (cmalloc N) rfl fun i hi c => rfl
  obtain ⟨pk, epk, hpk⟩ := fftlog_diagonal P power N kmin kmax hk
  refine ⟨k, pk, _, hk, hpk, fun e he => ?_⟩
  unfold covariance_integrate_fftlog
  dsimp only
  have hkg : (fun (i : ℕ) (b : Buf ℕ ℝ) => b.store i (kmin * (kmax / kmin) ^ ((i : ℝ) / N))) = fun i b => b.store i (kGrid kmin kmax N i) := rfl
  rw [hkg, ek]
  simp only [bind, Except.bind] at *
  rw [epk]; dsimp only
  rw [he]

/-- **C60** fails for odd numbers of sampling points (the program and the setter accept them): the process ends,
reporting success. -/
theorem C60_odd_false (s : Spline2d) (P : ℝ → ℝ) (power l1 l2 : ℝ) (N : ℕ) (h : N % 2 = 1) (kmin kmax : ℝ)
    (sep result : Buf ℕ ℝ) (n : ℕ) :
    covariance_integrate_fftlog s P power l1 l2 N sep n kmin kmax result = .error .exit_success := by
  obtain ⟨k, pk, f, -, -, H⟩ := fftlog_input s P power l1 l2 N kmin kmax sep result n
  refine H _ ?_
  unfold two_sph_bessel
  rw [if_pos (by omega)]

/-- **C60** fails for 2, 4 and 6 sampling points: the window divides zero by zero. -/
theorem C60_small_false (s : Spline2d) (P : ℝ → ℝ) (power l1 l2 : ℝ) (N : ℕ) (h : N % 2 = 0) (h0 : 0 < N) (h8 : N < 8)
    (kmin kmax : ℝ) (sep result : Buf ℕ ℝ) (n : ℕ) :
    covariance_integrate_fftlog s P power l1 l2 N sep n kmin kmax result = .error .nan := by
  obtain ⟨k, pk, f, hk, hpk, H⟩ := fftlog_input s P power l1 l2 N kmin kmax sep result n
  refine H _ (two_sph_bessel_nan _ hk hk hpk rfl rfl h h (by omega) (by omega) ?_)
  rw [floor_quarter]; omega

/-- **C60** fails for 0 sampling points (the setter accepts them): the first wavenumber is read although there is none. -/
theorem C60_zero_false (s : Spline2d) (P : ℝ → ℝ) (power l1 l2 : ℝ) (kmin kmax : ℝ) (sep result : Buf ℕ ℝ) (n : ℕ) :
    covariance_integrate_fftlog s P power l1 l2 0 sep n kmin kmax result = .error .oob := by
  obtain ⟨k, pk, f, hk, -, H⟩ := fftlog_input s P power l1 l2 0 kmin kmax sep result n
  refine H _ ?_
  unfold two_sph_bessel
  rw [if_neg (by omega), if_neg (by omega)]
  dsimp only
  rw [Buf.load_oob k (i := 0) (by rw [hk.1]; omega)]
  rfl

/-- **C60**: the integration finishes if and only if the number of sampling points is even and at least eight; then all
values are written. -/
theorem C60_iff (s : Spline2d) (P : ℝ → ℝ) (power l1 l2 : ℝ) (N : ℕ) (kmin kmax : ℝ) (S : ℕ → ℝ) (n : ℕ) (result : Buf ℕ ℝ)
    (hr : result.dom = (· < n * n)) :
    (∃ b, covariance_integrate_fftlog s P power l1 l2 N (Buf.of (· < n) S) n kmin kmax result = .ok b ∧
      b.dom = (· < n * n) ∧ ∀ q < n * n, ∃ v, b.val q = some v) ↔ N % 2 = 0 ∧ 8 ≤ N := by
  constructor
  · rintro ⟨b, e, -⟩
    by_cases h1 : N % 2 = 1
    · rw [C60_odd_false s P power l1 l2 N h1] at e; cases e
    · by_cases h0 : N = 0
      · subst h0; rw [C60_zero_false] at e; cases e
      · by_cases h8 : 8 ≤ N
        · exact ⟨by omega, h8⟩
        · rw [C60_small_false s P power l1 l2 N (by omega) (by omega) (by omega)] at e; cases e
  · rintro ⟨h, h8⟩
    obtain ⟨z, -, x, -, y, -, b, e, hd, hb⟩ := fftlog_ok s P power l1 l2 N h h8 kmin kmax (stores_of (· < n) S) hr
    refine ⟨b, e, hd, fun q hq => ?_⟩
    have hn : 0 < n := Nat.pos_of_ne_zero (by rintro rfl; simp at hq)
    exact ⟨_, by
      rw [← Nat.div_add_mod q n]
      exact hb (q % n) (Nat.mod_lt _ hn) (q / n) (Nat.div_lt_of_lt_mul hq)⟩

/-- **C60** (partial: the numbers of sampling points for which it works): the values are those of the spline through the
transform on the grid `r = 1 / k`. -/
theorem C60_partial (s : Spline2d) (P : ℝ → ℝ) (power l1 l2 : ℝ) (N : ℕ) (hN : N % 2 = 0) (h8 : 8 ≤ N) (kmin kmax : ℝ)
    (S : ℕ → ℝ) (n : ℕ) :
    ∃ x y z : ℕ → ℝ, (∀ i < N, x i = 1 / kGrid kmin kmax N (N - 1 - i)) ∧ (∀ i < N, y i = 1 / kGrid kmin kmax N (N - 1 - i)) ∧
      (∀ i < N, ∀ j < N, z (j * N + i) = nodeOf P power l1 l2 kmin kmax N i j) ∧
      ∃ b, covariance_integrate_fftlog s P power l1 l2 N (Buf.of (· < n) S) n kmin kmax (cmalloc (n * n)) = .ok b ∧
        ∀ i < n, ∀ j < n, b.val (n * j + i) = some (s x y z N (S i) (S j)) := by
  obtain ⟨z, hz, x, hx, y, hy, b, e, -, hb⟩ := fftlog_ok s P power l1 l2 N hN h8 kmin kmax (stores_of (· < n) S)
    (result := cmalloc (n * n)) rfl
  exact ⟨x, y, z, hx, hy, hz, b, e, hb⟩

example : (8000 % 2 = 0 ∧ 8 ≤ 8000) ∧ 7999 % 2 = 1 ∧ (6 % 2 = 0 ∧ 0 < 6 ∧ 6 < 8) := by decide

/-! ## C23 with FFTLog integration -/

theorem taper_one_pos {n : ℕ} (h : 0 < n) : 0 < taper n 1 := by
  rw [taper, if_pos (show 1 ≤ n from h)]
  have hn : (0 : ℝ) < n := by exact_mod_cast h
  have hp := Real.pi_pos
  have hx : 0 < 2 * Real.pi * (((1 : ℕ) : ℝ) / n) := by push_cast; positivity
  have := Real.sin_lt hx
  rw [sub_pos, div_lt_iff₀ (by positivity)]
  linarith

theorem taper_zero (n : ℕ) : taper n 0 = 0 := by simp [taper]

theorem kernel_ne_zero (l nu : ℝ) {k : ℕ → ℝ} (hk : ∀ i, 0 < k i) (N i : ℕ) : kernelOf l nu k N i ≠ 0 ∧ rowKernel l nu k N i ≠ 0 := by
  have hb : ((k 0 * (1 / k (N - 1)) : ℝ) : ℂ) ≠ 0 := by
    have := mul_pos (hk 0) (one_div_pos.2 (hk (N - 1)))
    exact_mod_cast this.ne'
  have hp : ∀ z : ℂ, ((k 0 * (1 / k (N - 1)) : ℝ) : ℂ) ^ z ≠ 0 := fun z h => hb ((Complex.cpow_eq_zero_iff _ _).1 h).1
  have hg : ∀ i, g_l l nu (etaOf k N) i ≠ 0 := fun i => Complex.exp_ne_zero _
  refine ⟨mul_ne_zero (hp _) (hg _), ?_⟩
  unfold rowKernel
  split_ifs
  · exact mul_ne_zero (hp _) (hg _)
  · exact mul_ne_zero (hp _) fun h => hg _ (by simpa using h)

/-- If one Fourier coefficient of the biased spectrum does not vanish, the transform is not symmetric in its two
separations, also not for equal multipoles: the window damps the negative frequencies of the first separation by one
cell more than the positive ones. -/
theorem fftlog_asymmetric (P : ℝ → ℝ) (power l1 l2 kmin kmax : ℝ) (h0 : 0 < kmin) (h1 : kmin < kmax) (N : ℕ) (hN : N % 2 = 0)
    (h8 : 8 ≤ N)
    (hF : r2c_2d N N (fun a b => diagonalOf P power kmin kmax N (a, b) / kGrid kmin kmax N a ^ (1.01 : ℝ) / kGrid kmin kmax N b ^ (1.01 : ℝ))
      (N - 1) (N / 2 - 1) ≠ 0) :
    ∃ a < N, ∃ b < N, nodeOf P power l1 l2 kmin kmax N a b ≠ nodeOf P power l1 l2 kmin kmax N b a := by
  by_contra hcon
  push Not at hcon
  have hk := kGrid_pos h0 h1 N
  have hpi := Real.pi_pos
  have hNr : (0 : ℝ) < N := by exact_mod_cast (by omega : 0 < N)
  set c : TwoBesselConfig := ⟨l1, l2, 1.01, 1.01, 0.25⟩ with hc
  set H := spectrumOf (kGrid kmin kmax N) (kGrid kmin kmax N) (diagonalOf P power kmin kmax N) N N c with hH
  have hsym : ∀ a < N, ∀ b < N, c2r_2d N N H a b = c2r_2d N N H b a := by
    intro a ha b hb
    have h := hcon a ha b hb
    unfold nodeOf twoBesselOf at h
    have pa : 0 < (1 / kGrid kmin kmax N (N - 1 - a)) ^ (1.01 : ℝ) := Real.rpow_pos_of_pos (one_div_pos.2 (hk _)) _
    have pb : 0 < (1 / kGrid kmin kmax N (N - 1 - b)) ^ (1.01 : ℝ) := Real.rpow_pos_of_pos (one_div_pos.2 (hk _)) _
    dsimp only at h
    generalize (1 / kGrid kmin kmax N (N - 1 - a)) ^ (1.01 : ℝ) = A at *
    generalize (1 / kGrid kmin kmax N (N - 1 - b)) ^ (1.01 : ℝ) = B at *
    have hd : 16 * (N : ℝ) * N * A * B = 16 * N * N * B * A := by ring
    rw [hd] at h
    have hne : 16 * (N : ℝ) * N * B * A ≠ 0 := by positivity
    have := (div_left_inj' hne).1 h
    exact mul_right_cancel₀ hpi.ne' this
  have key := symmetric_cells hN (by omega) H hsym
  have left : H (N / 2 + 1) 1 = 0 := by
    rw [hH]
    unfold spectrumOf
    have : rowTaper ⌊((N / 2 : ℕ) : ℝ) * c.c_window_width⌋₊ (N / 2) (N / 2 + 1) = 0 := by
      rw [rowTaper, if_neg (by omega), show N / 2 + 1 - N / 2 - 1 = 0 by omega, taper_zero]
    rw [this]; simp
  have right : H (N - 1) (N / 2 - 1) ≠ 0 := by
    rw [hH]
    unfold spectrumOf
    have e1 : rowTaper ⌊((N / 2 : ℕ) : ℝ) * c.c_window_width⌋₊ (N / 2) (N - 1) = 1 := by
      rw [rowTaper, if_neg (by omega), show c.c_window_width = 0.25 from rfl, floor_quarter, taper, if_neg (by omega)]
    have e2 : taper ⌊((N / 2 : ℕ) : ℝ) * c.c_window_width⌋₊ (N / 2 - (N / 2 - 1)) ≠ 0 := by
      rw [show N / 2 - (N / 2 - 1) = 1 by omega, show c.c_window_width = 0.25 from rfl, floor_quarter]
      exact (taper_one_pos (by omega)).ne'
    rw [e1, mul_one]
    intro h
    have h := (map_eq_zero _).1 h
    rcases mul_eq_zero.1 h with h | h
    · rcases mul_eq_zero.1 h with h | h
      · exact hF h
      · exact e2 (by exact_mod_cast h)
    · rcases mul_eq_zero.1 h with h | h
      · exact (kernel_ne_zero _ _ hk _ _).1 h
      · exact (kernel_ne_zero _ _ hk _ _).2 h
  rw [left] at key
  exact right ((map_eq_zero _).1 key.symm)

/-- The Fourier coefficients of a power law do not vanish. -/
theorem powerlaw_coefficient (n power kmin kmax : ℝ) (h0 : 0 < kmin) (h1 : kmin < kmax) (N : ℕ) (hN : 0 < N) (i j : ℕ)
    (he : 3 + n * power - 2.02 ≠ 0) :
    r2c_2d N N (fun a b => diagonalOf (fun k => k ^ n) power kmin kmax N (a, b) / kGrid kmin kmax N a ^ (1.01 : ℝ)
      / kGrid kmin kmax N b ^ (1.01 : ℝ)) i j ≠ 0 := by
  have hk := kGrid_pos h0 h1 N
  have hNr : (0 : ℝ) < N := by exact_mod_cast hN
  set R := kmax / kmin with hR
  have hR1 : 1 < R := (one_lt_div h0).2 h1
  have hlog : 0 < Real.log R := Real.log_pos hR1
  set e := 3 + n * power - 2.02 with hedef
  -- the biased diagonal is geometric
  have hval : ∀ a : ℕ, kGrid kmin kmax N a ^ 3 * (kGrid kmin kmax N a ^ n) ^ power / (Real.log R / N) / kGrid kmin kmax N a ^ (1.01 : ℝ)
      / kGrid kmin kmax N a ^ (1.01 : ℝ) = kmin ^ e / (Real.log R / N) * (R ^ (e / N)) ^ a := by
    intro a
    have k0 := hk a
    have e1 : kGrid kmin kmax N a ^ 3 * (kGrid kmin kmax N a ^ n) ^ power / (Real.log R / N) / kGrid kmin kmax N a ^ (1.01 : ℝ)
      / kGrid kmin kmax N a ^ (1.01 : ℝ) = kGrid kmin kmax N a ^ e / (Real.log R / N) := by
      have s1 : kGrid kmin kmax N a ^ 3 = kGrid kmin kmax N a ^ (3 : ℝ) := by
        rw [← Real.rpow_natCast]; norm_num
      have s2 : kGrid kmin kmax N a ^ e = kGrid kmin kmax N a ^ (3 : ℝ) * (kGrid kmin kmax N a ^ n) ^ power
          / kGrid kmin kmax N a ^ (1.01 : ℝ) / kGrid kmin kmax N a ^ (1.01 : ℝ) := by
        rw [← Real.rpow_mul k0.le, ← Real.rpow_add k0, ← Real.rpow_sub k0, ← Real.rpow_sub k0]
        congr 1; rw [hedef]; norm_num; ring
      rw [s1, s2]
      ring
    rw [e1, kGrid, Real.mul_rpow h0.le (Real.rpow_nonneg (by linarith) _), ← Real.rpow_mul (by linarith), ← Real.rpow_mul_natCast (by linarith)]
    have : (a : ℝ) / N * e = e / N * a := by ring
    rw [this]
    ring
  have hsum : r2c_2d N N (fun a b => diagonalOf (fun k => k ^ n) power kmin kmax N (a, b) / kGrid kmin kmax N a ^ (1.01 : ℝ)
      / kGrid kmin kmax N b ^ (1.01 : ℝ)) i j
      = ((kmin ^ e / (Real.log R / N) : ℝ) : ℂ) * ∑ a ∈ range N, (((R ^ (e / N) : ℝ) : ℂ) * twiddle N (-(i + j))) ^ a := by
    unfold r2c_2d
    rw [Finset.mul_sum]
    refine Finset.sum_congr rfl fun a ha => ?_
    rw [Finset.sum_eq_single_of_mem a ha (fun b _ hb => by
      simp only [diagonalOf, if_neg (Ne.symm hb)]; simp)]
    simp only [diagonalOf, if_true]
    rw [hval a, mul_pow, ← twiddle_mul_nat, mul_assoc, ← twiddle_add]
    have : (-(a * i) : ℤ) + -(a * j) = a * -(i + j) := by ring
    rw [this]
    push_cast
    ring
  rw [hsum]
  have hρ : 0 < R ^ (e / N) := Real.rpow_pos_of_pos (by linarith) _
  have hne1 : (R ^ (e / N)) ^ N ≠ 1 := by
    rw [← Real.rpow_mul_natCast (by linarith), div_mul_cancel₀ _ hNr.ne']
    intro h
    have := congrArg Real.log h
    rw [Real.log_rpow (by linarith), Real.log_one] at this
    rcases mul_eq_zero.1 this with h | h
    · exact he h
    · exact hlog.ne' h
  have hnorm : ∀ t : ℤ, ‖twiddle N t‖ = 1 := by
    intro t
    have : (2 * Real.pi * Complex.I * t / N : ℂ) = ((2 * Real.pi * t / N : ℝ) : ℂ) * Complex.I := by push_cast; ring
    rw [twiddle, this, Complex.norm_exp_ofReal_mul_I]
  have hq : (((R ^ (e / N) : ℝ) : ℂ) * twiddle N (-(i + j))) ^ N ≠ 1 := by
    intro h
    have := congrArg norm h
    rw [norm_pow, norm_mul, hnorm, mul_one, Complex.norm_real, Real.norm_of_nonneg hρ.le, norm_one] at this
    exact hne1 this
  have hq1 : ((R ^ (e / N) : ℝ) : ℂ) * twiddle N (-(i + j)) ≠ 1 := fun h => hq (by rw [h, one_pow])
  rw [geom_sum_eq hq1]
  refine mul_ne_zero ?_ (div_ne_zero (sub_ne_zero.2 hq) (sub_ne_zero.2 hq1))
  have : kmin ^ e / (Real.log R / N) ≠ 0 := div_ne_zero (Real.rpow_pos_of_pos h0 _).ne' (div_pos hlog hNr).ne'
  exact_mod_cast this

/-- The FFTLog value at two separations of the grid. -/
theorem FFTLogOf.node {E : CovNum} {s : Spline2d} {P : ℝ → ℝ} {N : ℕ} {kmin kmax : ℝ} (h : E.FFTLogOf s P N kmin kmax)
    (hs : s.ExactAtNodes) (hN : N % 2 = 0) (h8 : 8 ≤ N) (h0 : 0 < kmin) (h1 : kmin < kmax) (power l1 l2 a b : ℕ) (ha : a < N) (hb : b < N) :
    E.fft power l1 l2 (rGrid kmin kmax N a) (rGrid kmin kmax N b) = nodeOf P power l1 l2 kmin kmax N a b := by
  obtain ⟨c, e, hc⟩ := h power l1 l2 (rGrid kmin kmax N a) (rGrid kmin kmax N b)
  obtain ⟨z, hz, x, hx, y, hy, c', e', -, hc'⟩ := fftlog_ok s P power l1 l2 N hN h8 kmin kmax
    (stores_of (· < 2) fun i => if i = 0 then rGrid kmin kmax N a else rGrid kmin kmax N b) (result := cmalloc (2 * 2)) rfl
  rw [e] at e'
  cases e'
  have := hc' 0 (by omega) 1 (by omega)
  rw [hc] at this
  have := Option.some.inj this
  rw [this]
  simp only [if_true, one_ne_zero, if_false]
  rw [← hx a ha, ← hy b hb, hs x y z N (by omega) (fun i j hij hj => by rw [hx i (by omega), hx j hj]; exact rGrid_lt h0 h1 hij hj)
    (fun i j hij hj => by rw [hy i (by omega), hy j hj]; exact rGrid_lt h0 h1 hij hj) a ha b hb, hz a ha b hb]

/-- **C23** fails with FFTLog integration: for every even number of at least eight sampling points, every interval of
wavenumbers, and every power-law spectrum `k^n` with `n ≠ -0.98` there are two separations whose monopole covariance
changes when they are exchanged. -/
theorem C23_fftlog_false (s : Spline2d) (hs : s.ExactAtNodes) (N : ℕ) (hN : N % 2 = 0) (h8 : 8 ≤ N) (kmin kmax : ℝ) (h0 : 0 < kmin)
    (h1 : kmin < kmax) (n : ℝ) (hn : n ≠ -0.98) (E : CovNum) (hE : E.FFTLogOf s (fun k => k ^ n) N kmin kmax) :
    ∃ (p : CovPar) (C : Buf ℕ CovCoord) (V : Buf ℕ ℝ), p.Accepted ∧ p.fftlog = true ∧ p.multipole_values = [0] ∧
      p.sep.length = 2 ∧ covariance_init p E wBg = .ok (C, V) ∧
      ∃ v w, V.val (pos5 1 2 0 0 0 0 1) = some v ∧ V.val (pos5 1 2 0 0 1 0 0) = some w ∧ v ≠ w := by
  obtain ⟨a, ha, b, hb, hab⟩ := fftlog_asymmetric (fun k => k ^ n) 1 0 0 kmin kmax h0 h1 N hN h8
    (powerlaw_coefficient n 1 kmin kmax h0 h1 N (by omega) _ _ (by
      intro h; apply hn; linarith))
  let p : CovPar := { covGood with z_mean := [1], deltaz := [1/10], density1 := [1], density2 := [1], fsky := [1], pixelsize := [10],
                                   multipole_values := [0], sep := [rGrid kmin kmax N a, rGrid kmin kmax N b],
                                   covariance_cosmic := false, covariance_poisson := false, fftlog := true, pk_linear := true, rsd := false }
  have hp : p.Matching := by constructor <;> simp [p, covGood, covWitness, CovPar.bins]
  obtain ⟨C, V, e, _, _, h⟩ := covariance_init_ok p E wBg hp (Or.inl rfl)
  have h01 := (h 0 (by simp [p, covGood, CovPar.bins]) 0 (by simp [p]) 0 (by simp [p]) 0 (by simp [p]) 1 (by simp [p])).2
  have h10 := (h 0 (by simp [p, covGood, CovPar.bins]) 0 (by simp [p]) 1 (by simp [p]) 0 (by simp [p]) 0 (by simp [p])).2
  refine ⟨p, C, V, ?_, rfl, rfl, rfl, e, _, _, h01, h10, ?_⟩
  · constructor <;> simp [p, covGood, covWitness, CovPar.bins]
  · have hL : legendre_integral 0 0 0 0 = 2 := by
      rw [legendre_integral_range]
      simp [T, cb]
    have hc : ∀ q : CovPar, q.pop1 = 1 → q.pop2 = 1 → q.pop3 = 1 → q.pop4 = 1 → coeff_mixed q 1 1 1 1 0 1 1 0 0 = 1 := by
      intro q q1 q2 q3 q4
      simp [coeff_mixed, covariance_coefficient, kronecker_delta, q1, q2, q3, q4, hL]
      norm_num
    have f1 := FFTLogOf.node hE hs hN h8 h0 h1 1 0 0 a b ha hb
    have f2 := FFTLogOf.node hE hs hN h8 h0 h1 1 0 0 b a hb ha
    push_cast at f1 f2
    have hpi := Real.pi_pos
    intro hh
    apply hab
    rw [← f1, ← f2]
    simp [cellFormula, tableCell, rawTable, rawFFT, p, covGood, covWitness, CovPar.unitVolume, CovPar.biasOf, CovPar.zOf, wBg, sign] at hh
    rw [hc _ rfl rfl rfl rfl, mul_one, mul_one] at hh
    have hV : (4 * Real.pi * ((1 + 10⁻¹) ^ 3 - (1 - 10⁻¹) ^ 3) / 3 : ℝ) ≠ 0 := by norm_num
    exact mul_right_cancel₀ (by positivity) ((div_left_inj' hV).1 hh)

/-! ### The hypotheses are met -/

/-- A surface through the nodes. -/
noncomputable def nodeSpline : Spline2d := fun x y z N u v =>
  if h : ∃ q : ℕ × ℕ, q.1 < N ∧ q.2 < N ∧ x q.1 = u ∧ y q.2 = v then z (h.choose.2 * N + h.choose.1) else 0

theorem nodeSpline_exact : nodeSpline.ExactAtNodes := by
  intro x y z N _ hx hy i hi j hj
  have inj : ∀ f : ℕ → ℝ, (∀ i j, i < j → j < N → f i < f j) → ∀ a < N, ∀ b < N, f a = f b → a = b := by
    intro f hf a ha b hb h
    rcases lt_trichotomy a b with h' | h' | h'
    · exact absurd h (hf a b h' hb).ne
    · exact h'
    · exact absurd h (hf b a h' ha).ne'
  have h : ∃ q : ℕ × ℕ, q.1 < N ∧ q.2 < N ∧ x q.1 = x i ∧ y q.2 = y j := ⟨(i, j), hi, hj, rfl, rfl⟩
  unfold nodeSpline
  rw [dif_pos h]
  obtain ⟨h1, h2, h3, h4⟩ := h.choose_spec
  rw [inj x hx _ h1 i hi h3, inj y hy _ h2 j hj h4]

/-- For every even number of at least eight sampling points there are numerics with the FFTLog values of the code. -/
theorem fftLogOf_exists (E : CovNum) (s : Spline2d) (P : ℝ → ℝ) (N : ℕ) (hN : N % 2 = 0) (h8 : 8 ≤ N) (kmin kmax : ℝ) :
    ∃ f, ({ E with fft := f } : CovNum).FFTLogOf s P N kmin kmax := by
  have H : ∀ (power l1 l2 : ℕ) (x y : ℝ), ∃ v b,
      covariance_integrate_fftlog s P power l1 l2 N (Buf.of (· < 2) fun i => if i = 0 then x else y) 2 kmin kmax (cmalloc (2 * 2)) = .ok b ∧
        b.val (2 * 1 + 0) = some v := by
    intro power l1 l2 x y
    obtain ⟨b, e, -, h⟩ := (C60_iff s P power l1 l2 N kmin kmax (fun i => if i = 0 then x else y) 2 (cmalloc (2 * 2)) rfl).2 ⟨hN, h8⟩
    obtain ⟨v, hv⟩ := h (2 * 1 + 0) (by omega)
    exact ⟨v, b, e, hv⟩
  choose f h using H
  exact ⟨f, h⟩

example : ∃ (s : Spline2d) (E : CovNum), s.ExactAtNodes ∧ E.FFTLogOf s (fun k => k ^ (1 : ℝ)) 8000 (1 / 1000) 100 :=
  ⟨nodeSpline, _, nodeSpline_exact, (fftLogOf_exists ⟨fun _ _ => 0, fun _ _ _ => 0, fun _ _ => 0, fun _ => 0, fun _ _ => 0, fun _ _ => 0, fun _ _ _ _ _ => 0, 1⟩ nodeSpline _ 8000 (by norm_num) (by norm_num) _ _).choose_spec⟩

end Coffe
