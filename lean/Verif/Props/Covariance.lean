import Verif.Proofs.CovValues
import Verif.Spec.Witness
import Mathlib.Tactic.NormNum

/-!
# C23–C26: the covariance
-/

namespace Coffe
open Classical

/-! ## C24: rows and coordinates -/

/-- Each row number below the number of rows is the position of exactly one combination of a redshift, two multipoles
and two separations. -/
theorem C24_complete (K L S q : ℕ) (h : q < K * L * S * L * S) :
    ∃! t : ℕ × ℕ × ℕ × ℕ × ℕ, (t.1 < K ∧ t.2.1 < L ∧ t.2.2.1 < S ∧ t.2.2.2.1 < L ∧ t.2.2.2.2 < S) ∧
      pos5 L S t.1 t.2.1 t.2.2.1 t.2.2.2.1 t.2.2.2.2 = q := by
  have hS : 0 < S := Nat.pos_of_ne_zero (by rintro rfl; simp at h)
  have hL : 0 < L := Nat.pos_of_ne_zero (by rintro rfl; simp at h)
  have dv : ∀ a n b : ℕ, b < n → (a * n + b) / n = a ∧ (a * n + b) % n = b := by
    intro a n b hb
    have hn : 0 < n := by omega
    constructor
    · rw [mul_comm, Nat.mul_add_div hn, Nat.div_eq_of_lt hb, Nat.add_zero]
    · rw [mul_comm, Nat.mul_add_mod, Nat.mod_eq_of_lt hb]
  refine ⟨(q / S / L / S / L, q / S / L / S % L, q / S / L % S, q / S % L, q % S),
    ⟨⟨?_, Nat.mod_lt _ hL, Nat.mod_lt _ hS, Nat.mod_lt _ hL, Nat.mod_lt _ hS⟩, ?_⟩, ?_⟩
  · simp only [Nat.div_div_eq_div_mul]
    exact Nat.div_lt_of_lt_mul (by calc q < K * L * S * L * S := h
      _ = S * L * S * L * K := by ring)
  · simp only [pos5, Nat.div_add_mod']
  · rintro ⟨k, i, m, j, n⟩ ⟨⟨hk, hi, hm, hj, hn⟩, rfl⟩
    simp only at hk hi hm hj hn
    simp only [pos5, (dv _ _ _ hn).1, (dv _ _ _ hn).2, (dv _ _ _ hj).1, (dv _ _ _ hj).2, (dv _ _ _ hm).1, (dv _ _ _ hm).2,
      (dv _ _ _ hi).1, (dv _ _ _ hi).2]

/-- **C24** (partial: distinct separations; with FFTLog integration increasing multipoles): the
computation succeeds and gives one row per combination, in lexicographic order, holding the coordinates of the
combination and the covariance for just these coordinates. -/
theorem C24_rows_partial (p : CovPar) (E : CovNum) (bg : Bg) (hp : p.Matching) (hz : p.MeanFits) (hs : p.sep.Nodup)
    (hf : p.fftlog = true → p.multipole_values.Pairwise (· < ·)) :
    ∃ C V, covariance_init p E bg = .ok (C, V) ∧ IsTable5 C V p.bins p.multipole_values.length p.sep.length p.coords
      fun k i m j n => p.covariance E bg k (p.multipole_values.getD i 0) (p.sep.getD m 0)
        (p.multipole_values.getD j 0) (p.sep.getD n 0) := by
  obtain ⟨C, V, e, hC, hV, h⟩ := covariance_init_ok p E bg hp hz
  refine ⟨C, V, e, hC, hV, fun k hk i hi m hm j hj n hn => ?_⟩
  have e := cellFormula_eq p E bg hf hs k i m j n hi hj hm hn
  refine ⟨(h k hk i hi m hm j hj n hn).1, ?_⟩
  dsimp only
  rw [← e]
  exact (h k hk i hi m hm j hj n hn).2

/-! ## C23: symmetry -/

theorem kronecker_swap (a b : ℤ) : kronecker_delta a b = kronecker_delta b a := by
  unfold kronecker_delta; simp only [eq_comm]

theorem cellFormula_swap (p : CovPar) (E : CovNum) (bg : Bg) (k i m j n : ℕ) (hf : p.fftlog = false ∨ i ≠ j) :
    cellFormula p E bg k i m j n = cellFormula p E bg k j n i m := by
  unfold cellFormula
  rw [tableCell_swap p E 1 (Or.inl rfl) k i m j n hf, tableCell_swap p E 2 (Or.inr rfl) k i m j n hf]
  generalize hl1 : p.multipole_values.getD i 0 = l1
  generalize hl2 : p.multipole_values.getD j 0 = l2
  dsimp only
  rw [coeff_mixed_swap _ _ _ _ _ _ _ _ l1 l2, coeff_cosmic_swap _ _ _ _ _ l1 l2, sign_tdiv_swap l2 l1,
    add_comm (l1 : ℤ) l2]
  refine congrArg₂ (· + ·) (congrArg₂ (· + ·) ?_ rfl) rfl
  by_cases hl : l1 = l2
  · by_cases hmn : m = n
    · subst hl hmn; rfl
    · have : kronecker_delta (m : ℤ) n = 0 := by rw [kronecker_delta, if_neg (by exact_mod_cast hmn)]
      rw [kronecker_swap (n : ℤ) m, this]; simp
  · have : kronecker_delta (l1 : ℤ) l2 = 0 := by rw [kronecker_delta, if_neg (by exact_mod_cast hl)]
    rw [kronecker_swap (l2 : ℤ) l1, this]; simp

/-- **C23** (partial: not for equal multipoles with FFTLog integration): the covariance of `(l₁, r₁)` with `(l₂, r₂)` is
the covariance of `(l₂, r₂)` with `(l₁, r₁)`. -/
theorem C23_formula_partial (p : CovPar) (E : CovNum) (bg : Bg) (k l1 : ℕ) (s1 : ℝ) (l2 : ℕ)
    (s2 : ℝ) (hf : p.fftlog = false ∨ l1 ≠ l2) : p.covariance E bg k l1 s1 l2 s2 = p.covariance E bg k l2 s2 l1 s1 := by
  unfold CovPar.covariance CovPar.mixedPart CovPar.cosmicPart
  rw [bessels_swap p E 1 k l1 s1 l2 s2 hf, bessels_swap p E 2 k l1 s1 l2 s2 hf, coeff_mixed_swap _ _ _ _ _ _ _ _ l1 l2,
    coeff_cosmic_swap _ _ _ _ _ l1 l2, sign_tdiv_swap l2 l1, add_comm (l1 : ℤ) l2]
  have : p.poissonPart k l1 s1 l2 s2 = p.poissonPart k l2 s2 l1 s1 := by
    unfold CovPar.poissonPart
    by_cases h : l1 = l2 ∧ s1 = s2
    · obtain ⟨rfl, rfl⟩ := h; rfl
    · rw [if_neg h, if_neg fun h' => h ⟨h'.1.symm, h'.2.symm⟩]
  rw [this]

/-- **C23**, on the computed rows (partial: not for equal multipoles with FFTLog integration, see `C23_fftlog_false`): two
rows of the same redshift with exchanged multipoles and separations have the same value (also if separations or
multipoles are repeated). -/
theorem C23_rows_partial (p : CovPar) (E : CovNum) (bg : Bg) (hp : p.Matching) (hz : p.MeanFits) :
    ∃ C V, covariance_init p E bg = .ok (C, V) ∧
      ∀ k < p.bins, ∀ i < p.multipole_values.length, ∀ m < p.sep.length, ∀ j < p.multipole_values.length, ∀ n < p.sep.length,
        p.fftlog = false ∨ i ≠ j →
        ∃ v, V.val (pos5 p.multipole_values.length p.sep.length k i m j n) = some v ∧
          V.val (pos5 p.multipole_values.length p.sep.length k j n i m) = some v := by
  obtain ⟨C, V, e, _, _, h⟩ := covariance_init_ok p E bg hp hz
  refine ⟨C, V, e, fun k hk i hi m hm j hj n hn hf => ⟨_, (h k hk i hi m hm j hj n hn).2, ?_⟩⟩
  rw [(h k hk j hj n hn i hi m hm).2, cellFormula_swap p E bg k i m j n hf]

/-! ## C25: the parts -/

/-- The same settings with these parts switched on. -/
def CovPar.withParts (p : CovPar) (poisson mixed cosmic : Bool) : CovPar :=
  { p with covariance_poisson := poisson, covariance_mixed := mixed, covariance_cosmic := cosmic }

/-- The same settings with these sky fractions. -/
def CovPar.withSky (p : CovPar) (fsky : List ℝ) : CovPar := { p with fsky := fsky }

theorem tableCell_parts (p : CovPar) (E : CovNum) (a b c : Bool) (power k i m j n : ℕ) :
    tableCell (p.withParts a b c) E power k i m j n = tableCell p E power k i m j n := rfl

theorem cellFormula_parts (p : CovPar) (E : CovNum) (bg : Bg) (a b c : Bool) (k i m j n : ℕ) :
    cellFormula (p.withParts a b c) E bg k i m j n =
      (if a then cellFormula (p.withParts true false false) E bg k i m j n else 0)
      + (if b then cellFormula (p.withParts false true false) E bg k i m j n else 0)
      + (if c then cellFormula (p.withParts false false true) E bg k i m j n else 0) := by
  cases a <;> cases b <;> cases c <;>
    simp only [cellFormula, CovPar.withParts, if_true, if_false, Bool.false_eq_true, add_zero, zero_add] <;> rfl

theorem parts_matching {p : CovPar} (hp : p.Matching) (a b c : Bool) : (p.withParts a b c).Matching :=
  ⟨hp.pos, hp.density1, hp.density2, hp.fsky, hp.pixelsize, hp.zmax, hp.deltaz, hp.pops⟩

/-- **C25**: there are arrays `P`, `M`, `X` (the values with just one part switched on) such that the values
for every choice of parts are the sums of those of the chosen parts; without any part all are zero. -/
theorem C25_parts (p : CovPar) (E : CovNum) (bg : Bg) (hp : p.Matching) (hz : p.MeanFits) :
    ∃ C P C' M C'' X, covariance_init (p.withParts true false false) E bg = .ok (C, P) ∧
      covariance_init (p.withParts false true false) E bg = .ok (C', M) ∧
      covariance_init (p.withParts false false true) E bg = .ok (C'', X) ∧
      ∀ a b c : Bool, ∃ D V, covariance_init (p.withParts a b c) E bg = .ok (D, V) ∧
        ∀ q < p.bins * p.multipole_values.length * p.sep.length * p.multipole_values.length * p.sep.length,
          ∃ x y z, P.val q = some x ∧ M.val q = some y ∧ X.val q = some z ∧
            V.val q = some ((if a then x else 0) + (if b then y else 0) + (if c then z else 0)) := by
  have H := fun a b c => covariance_init_ok (p.withParts a b c) E bg (parts_matching hp a b c) hz
  obtain ⟨C, P, e1, -, -, h1⟩ := H true false false
  obtain ⟨C', M, e2, -, -, h2⟩ := H false true false
  obtain ⟨C'', X, e3, -, -, h3⟩ := H false false true
  refine ⟨C, P, C', M, C'', X, e1, e2, e3, fun a b c => ?_⟩
  obtain ⟨D, V, e, -, -, h⟩ := H a b c
  refine ⟨D, V, e, fun q hq => ?_⟩
  obtain ⟨⟨k, i, m, j, n⟩, ⟨⟨⟨hk, hi, hm, hj, hn⟩, rfl⟩, -⟩⟩ := C24_complete _ _ _ q hq
  refine ⟨_, _, _, (h1 k hk i hi m hm j hj n hn).2, (h2 k hk i hi m hm j hj n hn).2, (h3 k hk i hi m hm j hj n hn).2, ?_⟩
  rw [← cellFormula_parts]
  exact (h k hk i hi m hm j hj n hn).2

/-- **C25**: without any part every entry is zero. -/
theorem C25_none (p : CovPar) (E : CovNum) (bg : Bg) (hp : p.Matching) (hz : p.MeanFits) :
    ∃ C V, covariance_init (p.withParts false false false) E bg = .ok (C, V) ∧
      ∀ q < p.bins * p.multipole_values.length * p.sep.length * p.multipole_values.length * p.sep.length,
        V.val q = some 0 := by
  obtain ⟨_, _, _, _, _, _, _, _, _, h⟩ := C25_parts p E bg hp hz
  obtain ⟨D, V, e, h⟩ := h false false false
  refine ⟨D, V, e, fun q hq => ?_⟩
  obtain ⟨x, y, z, -, -, -, hv⟩ := h q hq
  simpa using hv

theorem unitVolume_sky (p : CovPar) (E : CovNum) (bg : Bg) (s : List ℝ) (k : ℕ) :
    (p.withSky s).unitVolume E bg k = p.unitVolume E bg k := rfl

theorem div_scale (x v a b : ℝ) (ha : a ≠ 0) (hb : b ≠ 0) : b * (x / (b * v)) = a * (x / (a * v)) := by
  rw [mul_div_mul_left_eq_div' x v b hb, mul_div_mul_left_eq_div' x v a ha]
where
  mul_div_mul_left_eq_div' (x v b : ℝ) (hb : b ≠ 0) : b * (x / (b * v)) = x / v := by
    by_cases hv : v = 0
    · simp [hv]
    · field_simp

/-- **C25**: the values scale as one over the sky fraction (so one over the volume): sky fraction times value
does not change when the sky fractions are replaced by others. -/
theorem C25_volume (p : CovPar) (E : CovNum) (bg : Bg) (hp : p.Matching) (hz : p.MeanFits) (s : List ℝ)
    (hl : s.length = p.fsky.length) (h0 : ∀ x ∈ p.fsky, x ≠ 0) (hs : ∀ x ∈ s, x ≠ 0) :
    ∃ C V C' V', covariance_init p E bg = .ok (C, V) ∧ covariance_init (p.withSky s) E bg = .ok (C', V') ∧
      ∀ k < p.bins, ∀ i < p.multipole_values.length, ∀ m < p.sep.length, ∀ j < p.multipole_values.length, ∀ n < p.sep.length,
        ∃ x y, V.val (pos5 p.multipole_values.length p.sep.length k i m j n) = some x ∧
          V'.val (pos5 p.multipole_values.length p.sep.length k i m j n) = some y ∧
          s.getD k 0 * y = p.fsky.getD k 0 * x := by
  obtain ⟨C, V, e, _, _, h⟩ := covariance_init_ok p E bg hp hz
  have hp' : (p.withSky s).Matching :=
    ⟨hp.pos, hp.density1, hp.density2, hl.trans hp.fsky, hp.pixelsize, hp.zmax, hp.deltaz, hp.pops⟩
  obtain ⟨C', V', e', _, _, h'⟩ := covariance_init_ok (p.withSky s) E bg hp' hz
  refine ⟨C, V, C', V', e, e', fun k hk i hi m hm j hj n hn =>
    ⟨_, _, (h k hk i hi m hm j hj n hn).2, (h' k hk i hi m hm j hj n hn).2, ?_⟩⟩
  have ha : p.fsky.getD k 0 ≠ 0 := by
    rw [getD_lt 0 (hp.fsky ▸ hk)]; exact h0 _ (List.getElem_mem _)
  have hb : s.getD k 0 ≠ 0 := by
    rw [getD_lt 0 (hl.trans hp.fsky ▸ hk)]; exact hs _ (List.getElem_mem _)
  have hif : ∀ (c : Bool) (x v a b : ℝ), a ≠ 0 → b ≠ 0 →
      b * (if c then x / (b * v) else 0) = a * (if c then x / (a * v) else 0) := by
    intro c x v a b ha hb
    cases c
    · simp
    · simpa using div_scale x v a b ha hb
  have h3 : ∀ a x y z x' y' z' b : ℝ, a * x = b * x' → a * y = b * y' → a * z = b * z' →
      a * (x + y + z) = b * (x' + y' + z') := by
    intro a x y z x' y' z' b h1 h2 h3
    linear_combination h1 + h2 + h3
  exact h3 _ _ _ _ _ _ _ _ (hif _ _ _ _ _ ha hb) (hif _ _ _ _ _ ha hb) (hif _ _ _ _ _ ha hb)

/-! ## C26: memory -/

/-- **C26**, mean redshifts: every configuration that passes the checks is computed without an access outside the
arrays and without reading an indeterminate value; each entry of the result is written. -/
theorem C26_bounds (p : CovPar) (E : CovNum) (bg : Bg) (ha : p.average = false) (hp : p.Accepted) :
    ∃ C V, covariance_init p E bg = .ok (C, V) ∧
      ∀ q, (C.dom q ↔ q < p.bins * p.multipole_values.length * p.sep.length * p.multipole_values.length * p.sep.length) ∧
        (V.dom q ↔ q < p.bins * p.multipole_values.length * p.sep.length * p.multipole_values.length * p.sep.length) ∧
        (C.dom q → ∃ c v, C.val q = some c ∧ V.val q = some v) := by
  have hb : p.bins = p.z_mean.length := by simp [CovPar.bins, ha]
  have hp' : p.Matching := ⟨hb ▸ List.length_pos_of_ne_nil hp.z_mean, hp.density1, hp.density2, hp.fsky, hp.pixelsize,
    hp.zmax, fun _ => hp.deltaz, hp.pops⟩
  obtain ⟨C, V, e, hC, hV, h⟩ := covariance_init_ok p E bg hp' (Or.inr hb.symm)
  refine ⟨C, V, e, fun q => ⟨hC q, hV q, fun hq => ?_⟩⟩
  obtain ⟨⟨k, i, m, j, n⟩, ⟨⟨⟨hk, hi, hm, hj, hn⟩, rfl⟩, -⟩⟩ := C24_complete _ _ _ q ((hC q).1 hq)
  exact ⟨_, _, h k hk i hi m hm j hj n hn⟩

/-- **C26**, redshift bins (partial): there must be at least one bin, and the mean redshifts must be as many as
the bins unless the spectrum is linear.  The program checks neither. -/
theorem C26_average_partial (p : CovPar) (E : CovNum) (bg : Bg) (hp : p.Accepted) (hpos : 0 < p.bins)
    (hz : p.MeanFits) :
    ∃ C V, covariance_init p E bg = .ok (C, V) ∧
      ∀ q, (C.dom q ↔ q < p.bins * p.multipole_values.length * p.sep.length * p.multipole_values.length * p.sep.length) ∧
        (V.dom q ↔ q < p.bins * p.multipole_values.length * p.sep.length * p.multipole_values.length * p.sep.length) ∧
        (C.dom q → ∃ c v, C.val q = some c ∧ V.val q = some v) := by
  have hp' : p.Matching := ⟨hpos, hp.density1, hp.density2, hp.fsky, hp.pixelsize, hp.zmax, fun _ => hp.deltaz, hp.pops⟩
  obtain ⟨C, V, e, hC, hV, h⟩ := covariance_init_ok p E bg hp' hz
  refine ⟨C, V, e, fun q => ⟨hC q, hV q, fun hq => ?_⟩⟩
  obtain ⟨⟨k, i, m, j, n⟩, ⟨⟨⟨hk, hi, hm, hj, hn⟩, rfl⟩, -⟩⟩ := C24_complete _ _ _ q ((hC q).1 hq)
  exact ⟨_, _, h k hk i hi m hm j hj n hn⟩

/-- Two redshift bins, one mean redshift, a spectrum from CLASS. -/
noncomputable def covWitness : CovPar where
  z_mean := [1]
  deltaz := [1/10, 1/10]
  zmin := [1, 2]
  zmax := [2, 3]
  multipole_values := [0]
  sep := [100]
  density1 := [1, 1]
  density2 := [1, 1]
  fsky := [1, 1]
  pixelsize := [10, 10]
  pk_linear := false
  covariance_window := false
  covariance_cosmic := true
  covariance_mixed := true
  covariance_poisson := true
  fftlog := false
  pop1 := 1
  pop2 := 1
  pop3 := 1
  pop4 := 1
  den := true
  rsd := true
  galaxy_bias1 := fun _ => 1
  galaxy_bias2 := fun _ => 1
  galaxy_bias3 := fun _ => 1
  galaxy_bias4 := fun _ => 1
  h := 67/100
  average := true

/-- The same without any bin, linear spectrum, Bessel functions averaged over pixels. -/
noncomputable def covEmpty : CovPar :=
  { covWitness with zmin := [], zmax := [], deltaz := [], density1 := [], density2 := [], fsky := [], pixelsize := [],
                    pk_linear := true, covariance_window := true }

/-- **C26** fails for redshift bins with a nonlinear (or CLASS) spectrum: one table of integrals per mean redshift is
filled, but one per bin is read. -/
theorem C26_average_false (E : CovNum) (bg : Bg) :
    covWitness.Accepted ∧ covariance_init covWitness E bg = .error .oob := by
  constructor
  · constructor <;> simp [covWitness, CovPar.bins]
  · simp [covariance_init, integral_tables, covWitness, cfor, upTo, List.range', fill_standard, ld, Buf.store, Buf.load, alloc_integral,
      Buf.new, fill_transpose, bind, Except.bind, pure, Except.pure, cov_values, cov_volume, cov_z_mean, cov_cell, cov_bias, push, cmalloc]

/-- **C26** fails without any bin: the pixel size number 0 is read although there is none. -/
theorem C26_empty_false (E : CovNum) (bg : Bg) :
    covEmpty.Accepted ∧ covariance_init covEmpty E bg = .error .oob := by
  constructor
  · constructor <;> simp [covEmpty, covWitness, CovPar.bins]
  · simp [covariance_init, integral_tables, covEmpty, covWitness, cfor, upTo, List.range', fill_standard, ld, bind, Except.bind]

/-- A configuration accepted for two mean redshifts, two multipoles and two separations. -/
noncomputable def covGood : CovPar :=
  { covWitness with z_mean := [1, 2], multipole_values := [0, 2], sep := [100, 150], average := false }

example : covGood.Accepted ∧ covGood.Matching ∧ covGood.MeanFits ∧ covGood.sep.Nodup ∧ covGood.average = false ∧
    covGood.fftlog = false ∧ ∀ x ∈ covGood.fsky, x ≠ 0 := by
  refine ⟨?_, ?_, Or.inr rfl, ?_, rfl, rfl, ?_⟩
  · constructor <;> simp [covGood, covWitness, CovPar.bins]
  · constructor <;> simp [covGood, covWitness, CovPar.bins]
  · norm_num [covGood]
  · simp [covGood, covWitness]

example : ({ covGood with average := true }).Accepted ∧ ({ covGood with average := true }).MeanFits := by
  refine ⟨?_, Or.inr rfl⟩
  constructor <;> simp [covGood, covWitness, CovPar.bins]

/-- **C24** needs distinct separations: with a repeated one, two rows have the same coordinates but only one of them
contains the shot noise. -/
theorem C24_duplicates_false :
    ∃ (p : CovPar) (E : CovNum) (bg : Bg) (C : Buf ℕ CovCoord) (V : Buf ℕ ℝ), p.Accepted ∧ p.fftlog = false ∧
      covariance_init p E bg = .ok (C, V) ∧ C.val 0 = C.val 1 ∧ (∃ c, C.val 0 = some c) ∧ V.val 0 ≠ V.val 1 := by
  let p : CovPar := { covGood with z_mean := [1], deltaz := [1/10], density1 := [1], density2 := [1], fsky := [1], pixelsize := [10],
                                   multipole_values := [0], sep := [100, 100], covariance_cosmic := false, covariance_mixed := false }
  let E : CovNum := ⟨fun _ _ => 0, fun _ _ _ => 0, fun _ _ => 0, fun _ => 0, fun _ _ => 0, fun _ _ => 0, fun _ _ _ _ _ => 0, 1⟩
  let bg : Bg := { wBg with comoving_distance := fun z => z }
  have hp : p.Matching := by constructor <;> simp [p, covGood, covWitness, CovPar.bins]
  obtain ⟨C, V, e, _, _, h⟩ := covariance_init_ok p E bg hp (Or.inr rfl)
  have h0 := h 0 (by simp [p, covGood, CovPar.bins]) 0 (by simp [p]) 0 (by simp [p]) 0 (by simp [p]) 0 (by simp [p])
  have h1 := h 0 (by simp [p, covGood, CovPar.bins]) 0 (by simp [p]) 0 (by simp [p]) 0 (by simp [p]) 1 (by simp [p])
  have p0 : pos5 p.multipole_values.length p.sep.length 0 0 0 0 0 = 0 := by simp [pos5]
  have p1 : pos5 p.multipole_values.length p.sep.length 0 0 0 0 1 = 1 := by simp [pos5]
  rw [p0] at h0
  rw [p1] at h1
  refine ⟨p, E, bg, C, V, ?_, rfl, e, ?_, ⟨_, h0.1⟩, ?_⟩
  · constructor <;> simp [p, covGood, covWitness, CovPar.bins]
  · rw [h0.1, h1.1]; rfl
  · rw [h0.2, h1.2]
    intro hh
    have := Option.some.inj hh
    have hpi := Real.pi_pos
    simp [cellFormula, p, covGood, covWitness, kronecker_delta, sign, CovPar.unitVolume, bg] at this
    norm_num at this

end Coffe
