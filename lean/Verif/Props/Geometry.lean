import Verif.Model.Signal.Dispatch
import Verif.Spec.Witness
import Mathlib.Tactic.FieldSimp
import Mathlib.Tactic.Linarith
import Mathlib.Tactic.NormNum

/-!
# C13: the geometry of a pair
-/

namespace Coffe
open Classical

/-- Two points at distances `a`, `b` from the observer, seen under an angle with cosine `c`, a distance `r`
apart. -/
def LawOfCosines (a b c r : ℝ) : Prop := r ^ 2 = a ^ 2 + b ^ 2 - 2 * a * b * c

theorem geom_core {chi r mu : ℝ} (h1 : |mu| ≤ 1) (h2 : 0 ≤ r) (h3 : r * |mu| < 2 * chi) (h4 : r ≤ 2 * chi) :
    0 < chi - r * mu / 2 ∧ 0 < chi + r * mu / 2 ∧
    LawOfCosines (chi - r * mu / 2) (chi + r * mu / 2)
      ((2 * chi * chi - r * r + mu * mu * r * r / 2) / (2 * chi * chi - mu * mu * r * r / 2)) r ∧
    |(2 * chi * chi - r * r + mu * mu * r * r / 2) / (2 * chi * chi - mu * mu * r * r / 2)| ≤ 1 := by
  obtain ⟨m1, m2⟩ := abs_le.1 h1
  have a1 : r * mu ≤ r * |mu| := mul_le_mul_of_nonneg_left (le_abs_self mu) h2
  have a2 : -(r * mu) ≤ r * |mu| := by
    have := mul_le_mul_of_nonneg_left (neg_abs_le mu) h2
    linarith
  have p1 : 0 < chi - r * mu / 2 := by linarith
  have p2 : 0 < chi + r * mu / 2 := by linarith
  have hd : 0 < 2 * chi * chi - mu * mu * r * r / 2 := by
    have : 2 * chi * chi - mu * mu * r * r / 2 = 2 * ((chi - r * mu / 2) * (chi + r * mu / 2)) := by ring
    rw [this]; positivity
  have hm : mu * mu ≤ 1 := by nlinarith
  refine ⟨p1, p2, ?_, ?_⟩
  · unfold LawOfCosines
    have hk : 2 * (chi - r * mu / 2) * (chi + r * mu / 2) = 2 * chi * chi - mu * mu * r * r / 2 := by ring
    rw [hk, mul_div_cancel₀ _ hd.ne']
    ring
  · rw [abs_le, le_div_iff₀ hd, div_le_iff₀ hd]
    constructor
    · nlinarith
    · nlinarith [mul_nonneg h2 h2]

/-- **C13.** For every pair with `|mu| ≤ 1`, `r|mu| < 2 chi`, `r ≤ 2 chi` the line-of-sight distances and the
angle used by all three integrands are those of a real triangle: positive distances with difference `r mu`, law
of cosines, `|cos theta| ≤ 1`. -/
theorem C13_geometry (par : Par) (bg : Bg) (I : Ints) (z mu r x y : ℝ) (h1 : |mu| ≤ 1) (h2 : 0 ≤ r)
    (h3 : r * |mu| < 2 * bg.comoving_distance z) (h4 : r ≤ 2 * bg.comoving_distance z) :
    (let v := NonEnv.of par bg z mu r
     0 < v.chi1 ∧ 0 < v.chi2 ∧ v.chi2 - v.chi1 = r * mu ∧ LawOfCosines v.chi1 v.chi2 v.costheta r ∧
       |v.costheta| ≤ 1) ∧
    (let v := SingleEnv.of par bg I z mu r x
     0 < v.chi1 ∧ 0 < v.chi2 ∧ v.chi2 - v.chi1 = r * mu ∧ LawOfCosines v.chi1 v.chi2 v.costheta r ∧
       |v.costheta| ≤ 1) ∧
    (let v := DoubleEnv.of par bg I z mu r x y
     0 < v.chi1 ∧ 0 < v.chi2 ∧ v.chi2 - v.chi1 = r * mu ∧ LawOfCosines v.chi1 v.chi2 v.costheta r ∧
       |v.costheta| ≤ 1) := by
  obtain ⟨p1, p2, p3, p4⟩ := geom_core h1 h2 h3 h4
  have p5 : bg.comoving_distance z + r * mu / 2 - (bg.comoving_distance z - r * mu / 2) = r * mu := by ring
  exact ⟨⟨p1, p2, p5, p3, p4⟩, ⟨p1, p2, p5, p3, p4⟩, ⟨p1, p2, p5, p3, p4⟩⟩

theorem triangle_nonneg {a b c : ℝ} (h : |c| ≤ 1) : 0 ≤ a * a + b * b - 2 * b * a * c := by
  obtain ⟨h1, h2⟩ := abs_le.1 h
  have hc : c * c ≤ 1 := by nlinarith
  nlinarith [sq_nonneg (a - b * c), sq_nonneg b, mul_nonneg (sq_nonneg b) (sub_nonneg.2 hc)]

/-- **C13, points on the line of sight.** The squared distance from one galaxy to the point a fraction `x` of
the way to the other, and between two such points, is the law of cosines; the "if negative, set to zero" guards
of the code never change anything. -/
theorem C13_line_of_sight (par : Par) (bg : Bg) (I : Ints) (z mu r x y : ℝ) (h1 : |mu| ≤ 1) (h2 : 0 ≤ r)
    (h3 : r * |mu| < 2 * bg.comoving_distance z) (h4 : r ≤ 2 * bg.comoving_distance z) :
    (let v := SingleEnv.of par bg I z mu r x
     v.lambda1 = v.chi1 * x ∧ v.lambda2 = v.chi2 * x ∧
       LawOfCosines v.lambda2 v.chi1 v.costheta (Real.sqrt v.r21) ∧
       LawOfCosines v.lambda1 v.chi2 v.costheta (Real.sqrt v.r22)) ∧
    (let v := DoubleEnv.of par bg I z mu r x y
     v.lambda1 = v.chi1 * x ∧ v.lambda2 = v.chi2 * y ∧
       LawOfCosines v.lambda1 v.lambda2 v.costheta (Real.sqrt v.r2)) := by
  obtain ⟨-, ⟨-, -, -, -, hs⟩, ⟨-, -, -, -, hd⟩⟩ := C13_geometry par bg I z mu r x y h1 h2 h3 h4
  have clamp : ∀ t : ℝ, 0 ≤ t → Real.sqrt (if t < 0 then 0 else t) ^ 2 = t := fun t ht => by
    rw [if_neg (not_lt.2 ht), Real.sq_sqrt ht]
  refine ⟨⟨rfl, rfl, ?_, ?_⟩, ⟨rfl, rfl, ?_⟩⟩
  · unfold LawOfCosines
    refine (clamp _ (triangle_nonneg hs)).trans ?_
    simp only [SingleEnv.of]; ring
  · unfold LawOfCosines
    refine (clamp _ (triangle_nonneg hs)).trans ?_
    simp only [SingleEnv.of]; ring
  · unfold LawOfCosines
    refine (clamp _ ?_).trans ?_
    · have := triangle_nonneg hd (a := (DoubleEnv.of par bg I z mu r x y).lambda2)
        (b := (DoubleEnv.of par bg I z mu r x y).lambda1)
      simp only [DoubleEnv.of] at this ⊢
      linarith
    · simp only [DoubleEnv.of]; ring

/-- The hypothesis `r ≤ 2 chi` is needed: a transverse pair further apart than twice its distance gives a
"cosine" below -1. -/
theorem C13_far_pair_false : ∃ v, v = NonEnv.of wPar wBg 1 0 3 ∧ v.costheta < -1 :=
  ⟨_, rfl, by simp [NonEnv.of, wBg]; norm_num⟩

/-- Non-vacuity: a grazing pair. -/
example : |(1 / 2 : ℝ)| ≤ 1 ∧ (0 : ℝ) ≤ 4 ∧ 4 * |(1 / 2 : ℝ)| < 2 * wBg.comoving_distance 2 ∧
    (4 : ℝ) ≤ 2 * wBg.comoving_distance 2 := by
  simp [wBg, abs_of_pos]; norm_num

end Coffe
