import Verif.Proofs.Legendre3
import Verif.Props.Derivatives

/-!
# C28: the angular coefficient of the covariance; C15: Kaiser's multipoles
-/

namespace Coffe
open Classical intervalIntegral MeasureTheory

theorem legendre_integral_range (n m a b : ℕ) :
    legendre_integral n m a b = 2 * ∑ l ∈ Finset.range (n + m + 1), (2 * (l : ℝ) + 1) * T n m l * T a b l := by
  unfold legendre_integral
  by_cases h : (n + m + a + b) % 2 ≠ 0
  · rw [if_pos h, Finset.sum_eq_zero, mul_zero]
    intro l _
    by_cases h1 : (n + m + l) % 2 = 0
    · rw [T_zero (n := a) (by omega), mul_zero]
    · rw [T_zero (n := n) (by omega), mul_zero, zero_mul]
  · rw [if_neg h]
    dsimp only
    congr 1
    simp only [coupling3j_sq]
    refine Finset.sum_subset (fun l hl => ?_) fun l _ hl => ?_
    · rw [Finset.mem_Icc] at hl
      rw [Finset.mem_range]
      split_ifs at hl <;> omega
    · rw [Finset.mem_Icc] at hl
      by_cases h1 : l ≤ n + m ∧ n ≤ m + l ∧ m ≤ n + l
      · rw [T_zero (n := a) (by split_ifs at hl <;> omega), mul_zero]
      · rw [T_zero (n := n) (by omega), mul_zero, zero_mul]

/-- **C28.** The angular coefficient is the integral of the product of four Legendre polynomials. -/
theorem C28_integral (n m a b : ℕ) :
    legendre_integral n m a b = ∫ x in (-1 : ℝ)..1, legP n x * legP m x * legP a x * legP b x := by
  rw [legendre_integral_range, leg_four n m b a (n + m + 1) (Nat.lt_succ_self _)]

/-- **C28.** It vanishes when the degrees add up to an odd number, … -/
theorem C28_odd (n m a b : ℕ) (h : (n + m + a + b) % 2 = 1) : legendre_integral n m a b = 0 :=
  if_pos (by omega)

/-- … and does not depend on the order of the degrees. -/
theorem C28_symmetric (n m a b : ℕ) :
    legendre_integral n m a b = legendre_integral m n a b ∧ legendre_integral n m a b = legendre_integral n m b a ∧
    legendre_integral n m a b = legendre_integral a b n m ∧ legendre_integral n m a b = legendre_integral n a m b := by
  simp only [C28_integral]
  refine ⟨?_, ?_, ?_, ?_⟩ <;>
  · congr 1; funext x; ring

/-- Non-vacuity: the coefficient is not zero. -/
example : legendre_integral 1 1 0 0 = 2 / 3 := by
  rw [legendre_integral_range]
  have h1 : T 1 1 0 = 1 / 3 := by rw [T_l_zero, if_pos rfl]; norm_num
  have h2 : T 0 0 0 = 1 := by rw [T_l_zero, if_pos rfl]; norm_num
  have h3 : T 0 0 1 = 0 := T_zero (by omega)
  have h4 : T 0 0 2 = 0 := T_zero (by omega)
  simp [Finset.sum_range_succ, h1, h2, h3, h4]; norm_num

/-! ## Kaiser multipoles -/

/-- Kaiser's multipoles: monopole, quadrupole, hexadecapole; all others vanish. -/
noncomputable def kaiserMultipole (b1 b2 f I00 I02 I04 : ℝ) : ℕ → ℝ
  | 0 => (b1 * b2 + (b1 + b2) * f / 3 + f ^ 2 / 5) * I00
  | 2 => - (2 * (b1 + b2) * f / 3 + 4 * f ^ 2 / 7) * I02
  | 4 => 8 * f ^ 2 / 35 * I04
  | _ => 0

theorem legP2_eq (x : ℝ) : legP2 x = legP 2 x := by
  simp only [legP2, legP]; norm_num; ring

theorem legP4_eq (x : ℝ) : legP4 x = legP 4 x := by
  simp only [legP4, legP]; norm_num; ring

theorem legWeight_eq (l : ℕ) (x : ℝ) : legWeight l x = legP l x := by
  unfold legWeight; split_ifs with h
  · rw [h]; rfl
  · rfl

/-- The multipoles of a sum of the three even Legendre polynomials. -/
theorem kaiser_project (A B C : ℝ) (l : ℕ) :
    (2 * (l : ℝ) + 1) * (∫ x in (0 : ℝ)..1, (A + B * legP2 (2 * x - 1) + C * legP4 (2 * x - 1)) * legWeight l (2 * x - 1))
      = (if l = 0 then A else 0) + (if l = 2 then B else 0) + (if l = 4 then C else 0) := by
  have e : (∫ x in (0 : ℝ)..1, (A + B * legP2 (2 * x - 1) + C * legP4 (2 * x - 1)) * legWeight l (2 * x - 1)) =
      1 / 2 * ∫ x in (-1 : ℝ)..1, (A + B * legP 2 x + C * legP 4 x) * legP l x := by
    have := intervalIntegral.integral_comp_mul_sub (a := 0) (b := 1)
      (fun y => (A + B * legP2 y + C * legP4 y) * legWeight l y) (c := 2) two_ne_zero 1
    rw [this]
    norm_num
    congr 1
    funext x; rw [legP2_eq, legP4_eq, legWeight_eq]
  have c := legP_continuous
  have o := leg_orthogonal
  have e2 : (∫ x in (-1 : ℝ)..1, (A + B * legP 2 x + C * legP 4 x) * legP l x) =
      A * (∫ x in (-1 : ℝ)..1, legP 0 x * legP l x) + B * (∫ x in (-1 : ℝ)..1, legP 2 x * legP l x)
        + C * (∫ x in (-1 : ℝ)..1, legP 4 x * legP l x) := by
    have ii : ∀ a : ℕ, IntervalIntegrable (fun x => legP a x * legP l x) volume (-1) 1 := fun a =>
      ((c a).mul (c l)).intervalIntegrable _ _
    rw [← intervalIntegral.integral_const_mul, ← intervalIntegral.integral_const_mul,
      ← intervalIntegral.integral_const_mul, ← intervalIntegral.integral_add ((ii _).const_mul _) ((ii _).const_mul _),
      ← intervalIntegral.integral_add (((ii _).const_mul _).add ((ii _).const_mul _)) ((ii _).const_mul _)]
    congr 1
    funext x
    have : legP 0 x = 1 := rfl
    rw [this]; ring
  rw [e, e2, o, o, o]
  by_cases h0 : l = 0
  · subst h0; norm_num; try ring
  · by_cases h2 : l = 2
    · subst h2; norm_num; try ring
    · by_cases h4 : l = 4
      · subst h4; norm_num; try ring
      · simp [h0, h2, h4, Ne.symm h0, Ne.symm h2, Ne.symm h4]

theorem kaiser_even (c : Contrib) (I : Ints) (b1 b2 f mu sep : ℝ) :
    kaiser c false I b1 b2 f mu sep =
      kaiserMultipole (if c.den then b1 else 0) (if c.den then b2 else 0) (if c.rsd then f else 0)
          (I.I00.result sep) (I.I02.result sep) (I.I04.result sep) 0
      + kaiserMultipole (if c.den then b1 else 0) (if c.den then b2 else 0) (if c.rsd then f else 0)
          (I.I00.result sep) (I.I02.result sep) (I.I04.result sep) 2 * legP2 mu
      + kaiserMultipole (if c.den then b1 else 0) (if c.den then b2 else 0) (if c.rsd then f else 0)
          (I.I00.result sep) (I.I02.result sep) (I.I04.result sep) 4 * legP4 mu := by
  unfold kaiser kaiserMultipole
  by_cases h1 : c.den = true <;> by_cases h2 : c.rsd = true <;>
    simp only [h1, h2, Bool.false_eq_true, not_false_iff, and_true, and_false, and_self, false_and, if_true,
      if_false] <;> ring

theorem kaiserMultipole_cases (b1 b2 f J0 J2 J4 D : ℝ) (l : ℕ) :
    (if l = 0 then kaiserMultipole b1 b2 f J0 J2 J4 0 * D else 0)
      + (if l = 2 then kaiserMultipole b1 b2 f J0 J2 J4 2 * D else 0)
      + (if l = 4 then kaiserMultipole b1 b2 f J0 J2 J4 4 * D else 0) = kaiserMultipole b1 b2 f J0 J2 J4 l * D := by
  by_cases h0 : l = 0
  · subst h0; simp
  · by_cases h2 : l = 2
    · subst h2; simp
    · by_cases h4 : l = 4
      · subst h4; simp
      · rw [if_neg h0, if_neg h2, if_neg h4]
        have : kaiserMultipole b1 b2 f J0 J2 J4 l = 0 := by
          unfold kaiserMultipole
          split <;> first | omega | rfl
        rw [this]; simp

/-- **C15.** Flat sky, density and redshift-space distortions (either or both), exact quadrature: the multipoles
of the signal are Kaiser's, for every multipole order. -/
theorem C15_kaiser (Q : Quad) (hQ : ∀ g : ℝ → ℝ, Continuous g → Q.one g = ∫ x in (0 : ℝ)..1, g x)
    (par : Par) (bg : Bg) (I : Ints) (z zmin zmax sep mu : ℝ) (l : ℕ)
    (hc : par.correlation_contrib.Kaiser)
    (hon : par.correlation_contrib.den = true ∨ par.correlation_contrib.rsd = true)
    (ho : par.only_cross_correlations = false) (hf : par.flatsky_local = true)
    (hm : ¬ (par.pk_type ≠ .COFFE_PK_LINEAR ∧ par.midpoint_approximation)) (hs : par = par.deriv {}) :
    signal_value Q par bg I z zmin zmax sep mu l .MULTIPOLES =
      kaiserMultipole (if par.correlation_contrib.den then par.galaxy_bias1 z else 0)
        (if par.correlation_contrib.den then par.galaxy_bias2 z else 0)
        (if par.correlation_contrib.rsd then bg.f z else 0)
        (I.I00.result sep) (I.I02.result sep) (I.I04.result sep) l * bg.D1 z ^ 2 := by
  have hF : ∀ x, multipoles_nonintegrated_integrand par bg I z sep l x = _ := fun x => by
    unfold multipoles_nonintegrated_integrand
    rw [signal_kaiser par bg I z (2 * x - 1) sep hc hf hm hs, ho, kaiser_even]
  obtain ⟨c1, c2, c3, c4, c5, c6, c7, c8⟩ := hc
  have g1 : non_gate par.correlation_contrib = true := by rcases hon with h | h <;> simp [non_gate, h]
  have g2 : single_gate par.correlation_contrib = false := by simp [single_gate, c1, c7, c8]
  have g3 : double_gate par.correlation_contrib = false := by simp [double_gate, c1, c7, c8]
  unfold signal_value coffe_integrate
  simp only [g1, g2, g3, Bool.false_eq_true, if_true, if_false, add_zero, integrate_non]
  have hF' : multipoles_nonintegrated_integrand par bg I z sep l = _ := funext hF
  rw [hF', hQ]
  · rw [← kaiserMultipole_cases, ← kaiser_project]
    congr 1
    congr 1
    funext x
    ring
  · have l2 : Continuous legP2 := by unfold legP2; fun_prop
    have l4 : Continuous legP4 := by unfold legP4; fun_prop
    have lw : Continuous (legWeight l) := by
      have : legWeight l = legP l := funext (legWeight_eq l)
      rw [this]; exact legP_continuous l
    fun_prop

/-- **C15, covariance.** The prefactors used in the covariance are the same, up to the sign of the quadrupole. -/
theorem C15_covariance (b1 b2 f J0 J2 J4 : ℝ) (l : ℕ) :
    kaiserMultipole b1 b2 f J0 J2 J4 l =
      (-1) ^ (l / 2) * covariance_coefficient b1 b2 f l * (if l = 0 then J0 else if l = 2 then J2 else J4) := by
  unfold kaiserMultipole covariance_coefficient
  split
  · simp
  · norm_num; try ring
  · norm_num
  · rename_i h0 h2 h4; simp

/-- Non-vacuity of C15: both effects, bias one and two; the monopole is not zero. -/
example : let par : Par := { wDen with correlation_contrib := { Contrib.none with den := true, rsd := true } }
    par.correlation_contrib.Kaiser ∧ par.only_cross_correlations = false ∧ par.flatsky_local = true ∧
    ¬ (par.pk_type ≠ .COFFE_PK_LINEAR ∧ par.midpoint_approximation) ∧ par = par.deriv {} ∧
    kaiserMultipole (par.galaxy_bias1 1) (par.galaxy_bias2 1) (wBg.f 1) 1 0 0 0 = 16 / 5 := by
  refine ⟨⟨rfl, rfl, rfl, rfl, rfl, rfl, rfl, rfl⟩, rfl, rfl, by simp [wDen, wPar], rfl, ?_⟩
  simp [kaiserMultipole, wDen, wPar, wBg]; norm_num

end Coffe
