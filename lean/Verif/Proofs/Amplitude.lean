import Verif.Model.Signal.Dispatch
import Mathlib.Tactic.NormNum

/-!
# Helper lemmas: terms that vanish with an amplitude

`S`: magnification bias 2/5; `F`: growth rate 1; `G`: Doppler factor 0.
-/

namespace Coffe
open Classical
set_option linter.unusedSimpArgs false
set_option linter.unusedVariables false

theorem amp_s1 : (2 : ℝ) - 5 * (2 / 5) = 0 := by norm_num
theorem amp_s2 : (5 : ℝ) * (2 / 5) - 2 = 0 := by norm_num

theorem non_g2_g2_zeroS (par : Par) (bg : Bg) (I : Ints) (v : NonEnv) (h1 : v.s1 = 2 / 5) (h2 : v.s2 = 2 / 5) :
    non_g2_g2 par bg I v = 0 := by
  unfold non_g2_g2
  simp only [h1, h2, amp_s1, amp_s2, sub_self, mul_zero, zero_mul, zero_div, add_zero, neg_zero, ite_self, sub_zero]

theorem non_den_g2_zeroS (par : Par) (bg : Bg) (I : Ints) (v : NonEnv) (h1 : v.s1 = 2 / 5) (h2 : v.s2 = 2 / 5) :
    non_den_g2 par bg I v = 0 := by
  unfold non_den_g2
  simp only [h1, h2, amp_s1, amp_s2, sub_self, mul_zero, zero_mul, zero_div, add_zero, neg_zero, ite_self, sub_zero]

theorem non_rsd_g2_zeroS (par : Par) (bg : Bg) (I : Ints) (v : NonEnv) (h1 : v.s1 = 2 / 5) (h2 : v.s2 = 2 / 5) :
    non_rsd_g2 par bg I v = 0 := by
  unfold non_rsd_g2
  simp only [h1, h2, amp_s1, amp_s2, sub_self, mul_zero, zero_mul, zero_div, add_zero, neg_zero, ite_self, sub_zero]

theorem non_d1_g2_zeroS (par : Par) (bg : Bg) (I : Ints) (v : NonEnv) (h1 : v.s1 = 2 / 5) (h2 : v.s2 = 2 / 5) :
    non_d1_g2 par bg I v = 0 := by
  unfold non_d1_g2
  simp only [h1, h2, amp_s1, amp_s2, sub_self, mul_zero, zero_mul, zero_div, add_zero, neg_zero, ite_self, sub_zero]

theorem non_d2_g2_zeroS (par : Par) (bg : Bg) (I : Ints) (v : NonEnv) (h1 : v.s1 = 2 / 5) (h2 : v.s2 = 2 / 5) :
    non_d2_g2 par bg I v = 0 := by
  unfold non_d2_g2
  simp only [h1, h2, amp_s1, amp_s2, sub_self, mul_zero, zero_mul, zero_div, add_zero, neg_zero, ite_self, sub_zero]

theorem non_g1_g2_zeroS (par : Par) (bg : Bg) (I : Ints) (v : NonEnv) (h1 : v.s1 = 2 / 5) (h2 : v.s2 = 2 / 5) :
    non_g1_g2 par bg I v = 0 := by
  unfold non_g1_g2
  simp only [h1, h2, amp_s1, amp_s2, sub_self, mul_zero, zero_mul, zero_div, add_zero, neg_zero, ite_self, sub_zero]

theorem non_g2_g3_zeroS (par : Par) (bg : Bg) (I : Ints) (v : NonEnv) (h1 : v.s1 = 2 / 5) (h2 : v.s2 = 2 / 5) :
    non_g2_g3 par bg I v = 0 := by
  unfold non_g2_g3
  simp only [h1, h2, amp_s1, amp_s2, sub_self, mul_zero, zero_mul, zero_div, add_zero, neg_zero, ite_self, sub_zero]

theorem single_den_len_zeroS (par : Par) (bg : Bg) (I : Ints) (v : SingleEnv) (h1 : v.s1 = 2 / 5) (h2 : v.s2 = 2 / 5) (h3 : v.sz_mean1 = 2 / 5) (h4 : v.sz_mean2 = 2 / 5) :
    single_den_len par bg I v = 0 := by
  unfold single_den_len
  simp only [h1, h2, h3, h4, amp_s1, amp_s2, sub_self, mul_zero, zero_mul, zero_div, add_zero, neg_zero, ite_self, sub_zero]

theorem single_rsd_len_zeroS (par : Par) (bg : Bg) (I : Ints) (v : SingleEnv) (h1 : v.s1 = 2 / 5) (h2 : v.s2 = 2 / 5) (h3 : v.sz_mean1 = 2 / 5) (h4 : v.sz_mean2 = 2 / 5) :
    single_rsd_len par bg I v = 0 := by
  unfold single_rsd_len
  simp only [h1, h2, h3, h4, amp_s1, amp_s2, sub_self, mul_zero, zero_mul, zero_div, add_zero, neg_zero, ite_self, sub_zero]

theorem single_d1_len_zeroS (par : Par) (bg : Bg) (I : Ints) (v : SingleEnv) (h1 : v.s1 = 2 / 5) (h2 : v.s2 = 2 / 5) (h3 : v.sz_mean1 = 2 / 5) (h4 : v.sz_mean2 = 2 / 5) :
    single_d1_len par bg I v = 0 := by
  unfold single_d1_len
  simp only [h1, h2, h3, h4, amp_s1, amp_s2, sub_self, mul_zero, zero_mul, zero_div, add_zero, neg_zero, ite_self, sub_zero]

theorem single_d2_len_zeroS (par : Par) (bg : Bg) (I : Ints) (v : SingleEnv) (h1 : v.s1 = 2 / 5) (h2 : v.s2 = 2 / 5) (h3 : v.sz_mean1 = 2 / 5) (h4 : v.sz_mean2 = 2 / 5) :
    single_d2_len par bg I v = 0 := by
  unfold single_d2_len
  simp only [h1, h2, h3, h4, amp_s1, amp_s2, sub_self, mul_zero, zero_mul, zero_div, add_zero, neg_zero, ite_self, sub_zero]

theorem single_g1_len_zeroS (par : Par) (bg : Bg) (I : Ints) (v : SingleEnv) (h1 : v.s1 = 2 / 5) (h2 : v.s2 = 2 / 5) (h3 : v.sz_mean1 = 2 / 5) (h4 : v.sz_mean2 = 2 / 5) :
    single_g1_len par bg I v = 0 := by
  unfold single_g1_len
  simp only [h1, h2, h3, h4, amp_s1, amp_s2, sub_self, mul_zero, zero_mul, zero_div, add_zero, neg_zero, ite_self, sub_zero]

theorem single_g2_len_zeroS (par : Par) (bg : Bg) (I : Ints) (v : SingleEnv) (h1 : v.s1 = 2 / 5) (h2 : v.s2 = 2 / 5) (h3 : v.sz_mean1 = 2 / 5) (h4 : v.sz_mean2 = 2 / 5) :
    single_g2_len par bg I v = 0 := by
  unfold single_g2_len
  simp only [h1, h2, h3, h4, amp_s1, amp_s2, sub_self, mul_zero, zero_mul, zero_div, add_zero, neg_zero, ite_self, sub_zero]

theorem single_g3_len_zeroS (par : Par) (bg : Bg) (I : Ints) (v : SingleEnv) (h1 : v.s1 = 2 / 5) (h2 : v.s2 = 2 / 5) (h3 : v.sz_mean1 = 2 / 5) (h4 : v.sz_mean2 = 2 / 5) :
    single_g3_len par bg I v = 0 := by
  unfold single_g3_len
  simp only [h1, h2, h3, h4, amp_s1, amp_s2, sub_self, mul_zero, zero_mul, zero_div, add_zero, neg_zero, ite_self, sub_zero]

theorem single_den_g4_zeroS (par : Par) (bg : Bg) (I : Ints) (v : SingleEnv) (h1 : v.s1 = 2 / 5) (h2 : v.s2 = 2 / 5) (h3 : v.sz_mean1 = 2 / 5) (h4 : v.sz_mean2 = 2 / 5) :
    single_den_g4 par bg I v = 0 := by
  unfold single_den_g4
  simp only [h1, h2, h3, h4, amp_s1, amp_s2, sub_self, mul_zero, zero_mul, zero_div, add_zero, neg_zero, ite_self, sub_zero]

theorem single_rsd_g4_zeroS (par : Par) (bg : Bg) (I : Ints) (v : SingleEnv) (h1 : v.s1 = 2 / 5) (h2 : v.s2 = 2 / 5) (h3 : v.sz_mean1 = 2 / 5) (h4 : v.sz_mean2 = 2 / 5) :
    single_rsd_g4 par bg I v = 0 := by
  unfold single_rsd_g4
  simp only [h1, h2, h3, h4, amp_s1, amp_s2, sub_self, mul_zero, zero_mul, zero_div, add_zero, neg_zero, ite_self, sub_zero]

theorem single_d1_g4_zeroS (par : Par) (bg : Bg) (I : Ints) (v : SingleEnv) (h1 : v.s1 = 2 / 5) (h2 : v.s2 = 2 / 5) (h3 : v.sz_mean1 = 2 / 5) (h4 : v.sz_mean2 = 2 / 5) :
    single_d1_g4 par bg I v = 0 := by
  unfold single_d1_g4
  simp only [h1, h2, h3, h4, amp_s1, amp_s2, sub_self, mul_zero, zero_mul, zero_div, add_zero, neg_zero, ite_self, sub_zero]

theorem single_d2_g4_zeroS (par : Par) (bg : Bg) (I : Ints) (v : SingleEnv) (h1 : v.s1 = 2 / 5) (h2 : v.s2 = 2 / 5) (h3 : v.sz_mean1 = 2 / 5) (h4 : v.sz_mean2 = 2 / 5) :
    single_d2_g4 par bg I v = 0 := by
  unfold single_d2_g4
  simp only [h1, h2, h3, h4, amp_s1, amp_s2, sub_self, mul_zero, zero_mul, zero_div, add_zero, neg_zero, ite_self, sub_zero]

theorem single_g1_g4_zeroS (par : Par) (bg : Bg) (I : Ints) (v : SingleEnv) (h1 : v.s1 = 2 / 5) (h2 : v.s2 = 2 / 5) (h3 : v.sz_mean1 = 2 / 5) (h4 : v.sz_mean2 = 2 / 5) :
    single_g1_g4 par bg I v = 0 := by
  unfold single_g1_g4
  simp only [h1, h2, h3, h4, amp_s1, amp_s2, sub_self, mul_zero, zero_mul, zero_div, add_zero, neg_zero, ite_self, sub_zero]

theorem single_g2_g4_zeroS (par : Par) (bg : Bg) (I : Ints) (v : SingleEnv) (h1 : v.s1 = 2 / 5) (h2 : v.s2 = 2 / 5) (h3 : v.sz_mean1 = 2 / 5) (h4 : v.sz_mean2 = 2 / 5) :
    single_g2_g4 par bg I v = 0 := by
  unfold single_g2_g4
  simp only [h1, h2, h3, h4, amp_s1, amp_s2, sub_self, mul_zero, zero_mul, zero_div, add_zero, neg_zero, ite_self, sub_zero]

theorem single_g2_g5_zeroS (par : Par) (bg : Bg) (I : Ints) (v : SingleEnv) (h1 : v.s1 = 2 / 5) (h2 : v.s2 = 2 / 5) (h3 : v.sz_mean1 = 2 / 5) (h4 : v.sz_mean2 = 2 / 5) :
    single_g2_g5 par bg I v = 0 := by
  unfold single_g2_g5
  simp only [h1, h2, h3, h4, amp_s1, amp_s2, sub_self, mul_zero, zero_mul, zero_div, add_zero, neg_zero, ite_self, sub_zero]

theorem single_g3_g4_zeroS (par : Par) (bg : Bg) (I : Ints) (v : SingleEnv) (h1 : v.s1 = 2 / 5) (h2 : v.s2 = 2 / 5) (h3 : v.sz_mean1 = 2 / 5) (h4 : v.sz_mean2 = 2 / 5) :
    single_g3_g4 par bg I v = 0 := by
  unfold single_g3_g4
  simp only [h1, h2, h3, h4, amp_s1, amp_s2, sub_self, mul_zero, zero_mul, zero_div, add_zero, neg_zero, ite_self, sub_zero]

theorem double_len_len_zeroS (par : Par) (bg : Bg) (I : Ints) (v : DoubleEnv) (h1 : v.s1 = 2 / 5) (h2 : v.s2 = 2 / 5) (h3 : v.sz_mean1 = 2 / 5) (h4 : v.sz_mean2 = 2 / 5) :
    double_len_len par bg I v = 0 := by
  unfold double_len_len
  simp only [h1, h2, h3, h4, amp_s1, amp_s2, sub_self, mul_zero, zero_mul, zero_div, add_zero, neg_zero, ite_self, sub_zero]

theorem double_g4_g4_zeroS (par : Par) (bg : Bg) (I : Ints) (v : DoubleEnv) (h1 : v.s1 = 2 / 5) (h2 : v.s2 = 2 / 5) (h3 : v.sz_mean1 = 2 / 5) (h4 : v.sz_mean2 = 2 / 5) :
    double_g4_g4 par bg I v = 0 := by
  unfold double_g4_g4
  simp only [h1, h2, h3, h4, amp_s1, amp_s2, sub_self, mul_zero, zero_mul, zero_div, add_zero, neg_zero, ite_self, sub_zero]

theorem double_g4_len_zeroS (par : Par) (bg : Bg) (I : Ints) (v : DoubleEnv) (h1 : v.s1 = 2 / 5) (h2 : v.s2 = 2 / 5) (h3 : v.sz_mean1 = 2 / 5) (h4 : v.sz_mean2 = 2 / 5) :
    double_g4_len par bg I v = 0 := by
  unfold double_g4_len
  simp only [h1, h2, h3, h4, amp_s1, amp_s2, sub_self, mul_zero, zero_mul, zero_div, add_zero, neg_zero, ite_self, sub_zero]

theorem double_g5_len_zeroS (par : Par) (bg : Bg) (I : Ints) (v : DoubleEnv) (h1 : v.s1 = 2 / 5) (h2 : v.s2 = 2 / 5) (h3 : v.sz_mean1 = 2 / 5) (h4 : v.sz_mean2 = 2 / 5) :
    double_g5_len par bg I v = 0 := by
  unfold double_g5_len
  simp only [h1, h2, h3, h4, amp_s1, amp_s2, sub_self, mul_zero, zero_mul, zero_div, add_zero, neg_zero, ite_self, sub_zero]

theorem double_g4_g5_zeroS (par : Par) (bg : Bg) (I : Ints) (v : DoubleEnv) (h1 : v.s1 = 2 / 5) (h2 : v.s2 = 2 / 5) (h3 : v.sz_mean1 = 2 / 5) (h4 : v.sz_mean2 = 2 / 5) :
    double_g4_g5 par bg I v = 0 := by
  unfold double_g4_g5
  simp only [h1, h2, h3, h4, amp_s1, amp_s2, sub_self, mul_zero, zero_mul, zero_div, add_zero, neg_zero, ite_self, sub_zero]

theorem non_g3_g3_zeroF (par : Par) (bg : Bg) (I : Ints) (v : NonEnv) (h1 : v.f1 = 1) (h2 : v.f2 = 1) :
    non_g3_g3 par bg I v = 0 := by
  unfold non_g3_g3
  simp only [h1, h2, amp_s1, amp_s2, sub_self, mul_zero, zero_mul, zero_div, add_zero, neg_zero, ite_self, sub_zero]

theorem non_den_g3_zeroF (par : Par) (bg : Bg) (I : Ints) (v : NonEnv) (h1 : v.f1 = 1) (h2 : v.f2 = 1) :
    non_den_g3 par bg I v = 0 := by
  unfold non_den_g3
  simp only [h1, h2, amp_s1, amp_s2, sub_self, mul_zero, zero_mul, zero_div, add_zero, neg_zero, ite_self, sub_zero]

theorem non_rsd_g3_zeroF (par : Par) (bg : Bg) (I : Ints) (v : NonEnv) (h1 : v.f1 = 1) (h2 : v.f2 = 1) :
    non_rsd_g3 par bg I v = 0 := by
  unfold non_rsd_g3
  simp only [h1, h2, amp_s1, amp_s2, sub_self, mul_zero, zero_mul, zero_div, add_zero, neg_zero, ite_self, sub_zero]

theorem non_d1_g3_zeroF (par : Par) (bg : Bg) (I : Ints) (v : NonEnv) (h1 : v.f1 = 1) (h2 : v.f2 = 1) :
    non_d1_g3 par bg I v = 0 := by
  unfold non_d1_g3
  simp only [h1, h2, amp_s1, amp_s2, sub_self, mul_zero, zero_mul, zero_div, add_zero, neg_zero, ite_self, sub_zero]

theorem non_d2_g3_zeroF (par : Par) (bg : Bg) (I : Ints) (v : NonEnv) (h1 : v.f1 = 1) (h2 : v.f2 = 1) :
    non_d2_g3 par bg I v = 0 := by
  unfold non_d2_g3
  simp only [h1, h2, amp_s1, amp_s2, sub_self, mul_zero, zero_mul, zero_div, add_zero, neg_zero, ite_self, sub_zero]

theorem non_g1_g3_zeroF (par : Par) (bg : Bg) (I : Ints) (v : NonEnv) (h1 : v.f1 = 1) (h2 : v.f2 = 1) :
    non_g1_g3 par bg I v = 0 := by
  unfold non_g1_g3
  simp only [h1, h2, amp_s1, amp_s2, sub_self, mul_zero, zero_mul, zero_div, add_zero, neg_zero, ite_self, sub_zero]

theorem non_g2_g3_zeroF (par : Par) (bg : Bg) (I : Ints) (v : NonEnv) (h1 : v.f1 = 1) (h2 : v.f2 = 1) :
    non_g2_g3 par bg I v = 0 := by
  unfold non_g2_g3
  simp only [h1, h2, amp_s1, amp_s2, sub_self, mul_zero, zero_mul, zero_div, add_zero, neg_zero, ite_self, sub_zero]

theorem single_g3_len_zeroF (par : Par) (bg : Bg) (I : Ints) (v : SingleEnv) (h1 : ∀ z, bg.f z = 1) :
    single_g3_len par bg I v = 0 := by
  unfold single_g3_len
  simp only [h1, amp_s1, amp_s2, sub_self, mul_zero, zero_mul, zero_div, add_zero, neg_zero, ite_self, sub_zero]

theorem single_den_g5_zeroF (par : Par) (bg : Bg) (I : Ints) (v : SingleEnv) (h1 : ∀ z, bg.f z = 1) :
    single_den_g5 par bg I v = 0 := by
  unfold single_den_g5
  simp only [h1, amp_s1, amp_s2, sub_self, mul_zero, zero_mul, zero_div, add_zero, neg_zero, ite_self, sub_zero]

theorem single_rsd_g5_zeroF (par : Par) (bg : Bg) (I : Ints) (v : SingleEnv) (h1 : ∀ z, bg.f z = 1) :
    single_rsd_g5 par bg I v = 0 := by
  unfold single_rsd_g5
  simp only [h1, amp_s1, amp_s2, sub_self, mul_zero, zero_mul, zero_div, add_zero, neg_zero, ite_self, sub_zero]

theorem single_d1_g5_zeroF (par : Par) (bg : Bg) (I : Ints) (v : SingleEnv) (h1 : ∀ z, bg.f z = 1) :
    single_d1_g5 par bg I v = 0 := by
  unfold single_d1_g5
  simp only [h1, amp_s1, amp_s2, sub_self, mul_zero, zero_mul, zero_div, add_zero, neg_zero, ite_self, sub_zero]

theorem single_d2_g5_zeroF (par : Par) (bg : Bg) (I : Ints) (v : SingleEnv) (h1 : ∀ z, bg.f z = 1) :
    single_d2_g5 par bg I v = 0 := by
  unfold single_d2_g5
  simp only [h1, amp_s1, amp_s2, sub_self, mul_zero, zero_mul, zero_div, add_zero, neg_zero, ite_self, sub_zero]

theorem single_g1_g5_zeroF (par : Par) (bg : Bg) (I : Ints) (v : SingleEnv) (h1 : ∀ z, bg.f z = 1) :
    single_g1_g5 par bg I v = 0 := by
  unfold single_g1_g5
  simp only [h1, amp_s1, amp_s2, sub_self, mul_zero, zero_mul, zero_div, add_zero, neg_zero, ite_self, sub_zero]

theorem single_g2_g5_zeroF (par : Par) (bg : Bg) (I : Ints) (v : SingleEnv) (h1 : ∀ z, bg.f z = 1) :
    single_g2_g5 par bg I v = 0 := by
  unfold single_g2_g5
  simp only [h1, amp_s1, amp_s2, sub_self, mul_zero, zero_mul, zero_div, add_zero, neg_zero, ite_self, sub_zero]

theorem single_g3_g4_zeroF (par : Par) (bg : Bg) (I : Ints) (v : SingleEnv) (h1 : ∀ z, bg.f z = 1) :
    single_g3_g4 par bg I v = 0 := by
  unfold single_g3_g4
  simp only [h1, amp_s1, amp_s2, sub_self, mul_zero, zero_mul, zero_div, add_zero, neg_zero, ite_self, sub_zero]

theorem single_g3_g5_zeroF (par : Par) (bg : Bg) (I : Ints) (v : SingleEnv) (h1 : ∀ z, bg.f z = 1) :
    single_g3_g5 par bg I v = 0 := by
  unfold single_g3_g5
  simp only [h1, amp_s1, amp_s2, sub_self, mul_zero, zero_mul, zero_div, add_zero, neg_zero, ite_self, sub_zero]

theorem double_g5_g5_zeroF (par : Par) (bg : Bg) (I : Ints) (v : DoubleEnv) (h1 : ∀ z, bg.f z = 1) :
    double_g5_g5 par bg I v = 0 := by
  unfold double_g5_g5
  simp only [h1, amp_s1, amp_s2, sub_self, mul_zero, zero_mul, zero_div, add_zero, neg_zero, ite_self, sub_zero]

theorem double_g4_g5_zeroF (par : Par) (bg : Bg) (I : Ints) (v : DoubleEnv) (h1 : ∀ z, bg.f z = 1) :
    double_g4_g5 par bg I v = 0 := by
  unfold double_g4_g5
  simp only [h1, amp_s1, amp_s2, sub_self, mul_zero, zero_mul, zero_div, add_zero, neg_zero, ite_self, sub_zero]

theorem non_d1_d1_zeroG (par : Par) (bg : Bg) (I : Ints) (v : NonEnv) (h1 : v.G1 = 0) (h2 : v.G2 = 0) (h3 : v.Gz_mean1 = 0) (h4 : v.Gz_mean2 = 0) :
    non_d1_d1 par bg I v = 0 := by
  unfold non_d1_d1
  simp only [h1, h2, h3, h4, amp_s1, amp_s2, sub_self, mul_zero, zero_mul, zero_div, add_zero, neg_zero, ite_self, sub_zero]

theorem non_den_d1_zeroG (par : Par) (bg : Bg) (I : Ints) (v : NonEnv) (h1 : v.G1 = 0) (h2 : v.G2 = 0) (h3 : v.Gz_mean1 = 0) (h4 : v.Gz_mean2 = 0) :
    non_den_d1 par bg I v = 0 := by
  unfold non_den_d1
  simp only [h1, h2, h3, h4, amp_s1, amp_s2, sub_self, mul_zero, zero_mul, zero_div, add_zero, neg_zero, ite_self, sub_zero]

theorem non_rsd_d1_zeroG (par : Par) (bg : Bg) (I : Ints) (v : NonEnv) (h1 : v.G1 = 0) (h2 : v.G2 = 0) (h3 : v.Gz_mean1 = 0) (h4 : v.Gz_mean2 = 0) :
    non_rsd_d1 par bg I v = 0 := by
  unfold non_rsd_d1
  simp only [h1, h2, h3, h4, amp_s1, amp_s2, sub_self, mul_zero, zero_mul, zero_div, add_zero, neg_zero, ite_self, sub_zero]

theorem single_d1_len_zeroG (par : Par) (bg : Bg) (I : Ints) (v : SingleEnv) (h1 : ∀ z, bg.G1 z = 0) (h2 : ∀ z, bg.G2 z = 0) :
    single_d1_len par bg I v = 0 := by
  unfold single_d1_len
  simp only [h1, h2, amp_s1, amp_s2, sub_self, mul_zero, zero_mul, zero_div, add_zero, neg_zero, ite_self, sub_zero]

theorem single_den_g5_zeroG (par : Par) (bg : Bg) (I : Ints) (v : SingleEnv) (h1 : ∀ z, bg.G1 z = 0) (h2 : ∀ z, bg.G2 z = 0) :
    single_den_g5 par bg I v = 0 := by
  unfold single_den_g5
  simp only [h1, h2, amp_s1, amp_s2, sub_self, mul_zero, zero_mul, zero_div, add_zero, neg_zero, ite_self, sub_zero]

theorem single_rsd_g5_zeroG (par : Par) (bg : Bg) (I : Ints) (v : SingleEnv) (h1 : ∀ z, bg.G1 z = 0) (h2 : ∀ z, bg.G2 z = 0) :
    single_rsd_g5 par bg I v = 0 := by
  unfold single_rsd_g5
  simp only [h1, h2, amp_s1, amp_s2, sub_self, mul_zero, zero_mul, zero_div, add_zero, neg_zero, ite_self, sub_zero]

theorem single_d1_g5_zeroG (par : Par) (bg : Bg) (I : Ints) (v : SingleEnv) (h1 : ∀ z, bg.G1 z = 0) (h2 : ∀ z, bg.G2 z = 0) :
    single_d1_g5 par bg I v = 0 := by
  unfold single_d1_g5
  simp only [h1, h2, amp_s1, amp_s2, sub_self, mul_zero, zero_mul, zero_div, add_zero, neg_zero, ite_self, sub_zero]

theorem single_d2_g5_zeroG (par : Par) (bg : Bg) (I : Ints) (v : SingleEnv) (h1 : ∀ z, bg.G1 z = 0) (h2 : ∀ z, bg.G2 z = 0) :
    single_d2_g5 par bg I v = 0 := by
  unfold single_d2_g5
  simp only [h1, h2, amp_s1, amp_s2, sub_self, mul_zero, zero_mul, zero_div, add_zero, neg_zero, ite_self, sub_zero]

theorem single_g1_g5_zeroG (par : Par) (bg : Bg) (I : Ints) (v : SingleEnv) (h1 : ∀ z, bg.G1 z = 0) (h2 : ∀ z, bg.G2 z = 0) :
    single_g1_g5 par bg I v = 0 := by
  unfold single_g1_g5
  simp only [h1, h2, amp_s1, amp_s2, sub_self, mul_zero, zero_mul, zero_div, add_zero, neg_zero, ite_self, sub_zero]

theorem single_g2_g5_zeroG (par : Par) (bg : Bg) (I : Ints) (v : SingleEnv) (h1 : ∀ z, bg.G1 z = 0) (h2 : ∀ z, bg.G2 z = 0) :
    single_g2_g5 par bg I v = 0 := by
  unfold single_g2_g5
  simp only [h1, h2, amp_s1, amp_s2, sub_self, mul_zero, zero_mul, zero_div, add_zero, neg_zero, ite_self, sub_zero]

theorem single_g3_g5_zeroG (par : Par) (bg : Bg) (I : Ints) (v : SingleEnv) (h1 : ∀ z, bg.G1 z = 0) (h2 : ∀ z, bg.G2 z = 0) :
    single_g3_g5 par bg I v = 0 := by
  unfold single_g3_g5
  simp only [h1, h2, amp_s1, amp_s2, sub_self, mul_zero, zero_mul, zero_div, add_zero, neg_zero, ite_self, sub_zero]

theorem double_g5_g5_zeroG (par : Par) (bg : Bg) (I : Ints) (v : DoubleEnv) (h1 : ∀ z, bg.G1 z = 0) (h2 : ∀ z, bg.G2 z = 0) :
    double_g5_g5 par bg I v = 0 := by
  unfold double_g5_g5
  simp only [h1, h2, amp_s1, amp_s2, sub_self, mul_zero, zero_mul, zero_div, add_zero, neg_zero, ite_self, sub_zero]

theorem double_g5_len_zeroG (par : Par) (bg : Bg) (I : Ints) (v : DoubleEnv) (h1 : ∀ z, bg.G1 z = 0) (h2 : ∀ z, bg.G2 z = 0) :
    double_g5_len par bg I v = 0 := by
  unfold double_g5_len
  simp only [h1, h2, amp_s1, amp_s2, sub_self, mul_zero, zero_mul, zero_div, add_zero, neg_zero, ite_self, sub_zero]

theorem double_g4_g5_zeroG (par : Par) (bg : Bg) (I : Ints) (v : DoubleEnv) (h1 : ∀ z, bg.G1 z = 0) (h2 : ∀ z, bg.G2 z = 0) :
    double_g4_g5 par bg I v = 0 := by
  unfold double_g4_g5
  simp only [h1, h2, amp_s1, amp_s2, sub_self, mul_zero, zero_mul, zero_div, add_zero, neg_zero, ite_self, sub_zero]

theorem non_switch_lenS (par : Par) (bg : Bg) (I : Ints) (b c : Bool) (hs1 : ∀ z, par.magnification_bias1 z = 2 / 5) (hs2 : ∀ z, par.magnification_bias2 z = 2 / 5)  (z mu sep : ℝ) :
    functions_nonintegrated { par with correlation_contrib := { par.correlation_contrib with len := b } } bg I z mu sep =
      functions_nonintegrated { par with correlation_contrib := { par.correlation_contrib with len := c } } bg I z mu sep := by
  have h : non_result { par with correlation_contrib := { par.correlation_contrib with len := b } } bg I (NonEnv.of par bg z mu sep) =
      non_result { par with correlation_contrib := { par.correlation_contrib with len := c } } bg I (NonEnv.of par bg z mu sep) := by
    unfold non_result
    rfl
  exact congrArg (· * non_growth par bg (NonEnv.of par bg z mu sep)) h

theorem single_switch_lenS (par : Par) (bg : Bg) (I : Ints) (b c : Bool) (hs1 : ∀ z, par.magnification_bias1 z = 2 / 5) (hs2 : ∀ z, par.magnification_bias2 z = 2 / 5)  (z mu sep x : ℝ) :
    functions_single_integrated { par with correlation_contrib := { par.correlation_contrib with len := b } } bg I z mu sep x =
      functions_single_integrated { par with correlation_contrib := { par.correlation_contrib with len := c } } bg I z mu sep x := by
  have h : single_result { par with correlation_contrib := { par.correlation_contrib with len := b } } bg I (SingleEnv.of par bg I z mu sep x) =
      single_result { par with correlation_contrib := { par.correlation_contrib with len := c } } bg I (SingleEnv.of par bg I z mu sep x) := by
    unfold single_result
    rw [single_den_len_zeroS { par with correlation_contrib := { par.correlation_contrib with len := b } } bg I _ (hs1 _) (hs2 _) (hs1 _) (hs2 _),
      single_den_len_zeroS { par with correlation_contrib := { par.correlation_contrib with len := c } } bg I _ (hs1 _) (hs2 _) (hs1 _) (hs2 _)]
    rw [single_rsd_len_zeroS { par with correlation_contrib := { par.correlation_contrib with len := b } } bg I _ (hs1 _) (hs2 _) (hs1 _) (hs2 _),
      single_rsd_len_zeroS { par with correlation_contrib := { par.correlation_contrib with len := c } } bg I _ (hs1 _) (hs2 _) (hs1 _) (hs2 _)]
    rw [single_d1_len_zeroS { par with correlation_contrib := { par.correlation_contrib with len := b } } bg I _ (hs1 _) (hs2 _) (hs1 _) (hs2 _),
      single_d1_len_zeroS { par with correlation_contrib := { par.correlation_contrib with len := c } } bg I _ (hs1 _) (hs2 _) (hs1 _) (hs2 _)]
    rw [single_d2_len_zeroS { par with correlation_contrib := { par.correlation_contrib with len := b } } bg I _ (hs1 _) (hs2 _) (hs1 _) (hs2 _),
      single_d2_len_zeroS { par with correlation_contrib := { par.correlation_contrib with len := c } } bg I _ (hs1 _) (hs2 _) (hs1 _) (hs2 _)]
    rw [single_g1_len_zeroS { par with correlation_contrib := { par.correlation_contrib with len := b } } bg I _ (hs1 _) (hs2 _) (hs1 _) (hs2 _),
      single_g1_len_zeroS { par with correlation_contrib := { par.correlation_contrib with len := c } } bg I _ (hs1 _) (hs2 _) (hs1 _) (hs2 _)]
    rw [single_g2_len_zeroS { par with correlation_contrib := { par.correlation_contrib with len := b } } bg I _ (hs1 _) (hs2 _) (hs1 _) (hs2 _),
      single_g2_len_zeroS { par with correlation_contrib := { par.correlation_contrib with len := c } } bg I _ (hs1 _) (hs2 _) (hs1 _) (hs2 _)]
    rw [single_g3_len_zeroS { par with correlation_contrib := { par.correlation_contrib with len := b } } bg I _ (hs1 _) (hs2 _) (hs1 _) (hs2 _),
      single_g3_len_zeroS { par with correlation_contrib := { par.correlation_contrib with len := c } } bg I _ (hs1 _) (hs2 _) (hs1 _) (hs2 _)]
    rfl
  exact h

theorem double_switch_lenS (par : Par) (bg : Bg) (I : Ints) (b c : Bool) (hs1 : ∀ z, par.magnification_bias1 z = 2 / 5) (hs2 : ∀ z, par.magnification_bias2 z = 2 / 5)  (z mu sep x y : ℝ) :
    functions_double_integrated { par with correlation_contrib := { par.correlation_contrib with len := b } } bg I z mu sep x y =
      functions_double_integrated { par with correlation_contrib := { par.correlation_contrib with len := c } } bg I z mu sep x y := by
  have h : double_result { par with correlation_contrib := { par.correlation_contrib with len := b } } bg I (DoubleEnv.of par bg I z mu sep x y) =
      double_result { par with correlation_contrib := { par.correlation_contrib with len := c } } bg I (DoubleEnv.of par bg I z mu sep x y) := by
    unfold double_result
    rw [double_len_len_zeroS { par with correlation_contrib := { par.correlation_contrib with len := b } } bg I _ (hs1 _) (hs2 _) (hs1 _) (hs2 _),
      double_len_len_zeroS { par with correlation_contrib := { par.correlation_contrib with len := c } } bg I _ (hs1 _) (hs2 _) (hs1 _) (hs2 _)]
    rw [double_g4_len_zeroS { par with correlation_contrib := { par.correlation_contrib with len := b } } bg I _ (hs1 _) (hs2 _) (hs1 _) (hs2 _),
      double_g4_len_zeroS { par with correlation_contrib := { par.correlation_contrib with len := c } } bg I _ (hs1 _) (hs2 _) (hs1 _) (hs2 _)]
    rw [double_g5_len_zeroS { par with correlation_contrib := { par.correlation_contrib with len := b } } bg I _ (hs1 _) (hs2 _) (hs1 _) (hs2 _),
      double_g5_len_zeroS { par with correlation_contrib := { par.correlation_contrib with len := c } } bg I _ (hs1 _) (hs2 _) (hs1 _) (hs2 _)]
    rfl
  exact congrArg (· * (COFFE_H0 * par.h) ^ 4) h

theorem non_switch_g2S (par : Par) (bg : Bg) (I : Ints) (b c : Bool) (hs1 : ∀ z, par.magnification_bias1 z = 2 / 5) (hs2 : ∀ z, par.magnification_bias2 z = 2 / 5)  (z mu sep : ℝ) :
    functions_nonintegrated { par with correlation_contrib := { par.correlation_contrib with g2 := b } } bg I z mu sep =
      functions_nonintegrated { par with correlation_contrib := { par.correlation_contrib with g2 := c } } bg I z mu sep := by
  have h : non_result { par with correlation_contrib := { par.correlation_contrib with g2 := b } } bg I (NonEnv.of par bg z mu sep) =
      non_result { par with correlation_contrib := { par.correlation_contrib with g2 := c } } bg I (NonEnv.of par bg z mu sep) := by
    unfold non_result
    rw [non_g2_g2_zeroS { par with correlation_contrib := { par.correlation_contrib with g2 := b } } bg I _ (hs1 _) (hs2 _),
      non_g2_g2_zeroS { par with correlation_contrib := { par.correlation_contrib with g2 := c } } bg I _ (hs1 _) (hs2 _)]
    rw [non_den_g2_zeroS { par with correlation_contrib := { par.correlation_contrib with g2 := b } } bg I _ (hs1 _) (hs2 _),
      non_den_g2_zeroS { par with correlation_contrib := { par.correlation_contrib with g2 := c } } bg I _ (hs1 _) (hs2 _)]
    rw [non_rsd_g2_zeroS { par with correlation_contrib := { par.correlation_contrib with g2 := b } } bg I _ (hs1 _) (hs2 _),
      non_rsd_g2_zeroS { par with correlation_contrib := { par.correlation_contrib with g2 := c } } bg I _ (hs1 _) (hs2 _)]
    rw [non_d1_g2_zeroS { par with correlation_contrib := { par.correlation_contrib with g2 := b } } bg I _ (hs1 _) (hs2 _),
      non_d1_g2_zeroS { par with correlation_contrib := { par.correlation_contrib with g2 := c } } bg I _ (hs1 _) (hs2 _)]
    rw [non_d2_g2_zeroS { par with correlation_contrib := { par.correlation_contrib with g2 := b } } bg I _ (hs1 _) (hs2 _),
      non_d2_g2_zeroS { par with correlation_contrib := { par.correlation_contrib with g2 := c } } bg I _ (hs1 _) (hs2 _)]
    rw [non_g1_g2_zeroS { par with correlation_contrib := { par.correlation_contrib with g2 := b } } bg I _ (hs1 _) (hs2 _),
      non_g1_g2_zeroS { par with correlation_contrib := { par.correlation_contrib with g2 := c } } bg I _ (hs1 _) (hs2 _)]
    rw [non_g2_g3_zeroS { par with correlation_contrib := { par.correlation_contrib with g2 := b } } bg I _ (hs1 _) (hs2 _),
      non_g2_g3_zeroS { par with correlation_contrib := { par.correlation_contrib with g2 := c } } bg I _ (hs1 _) (hs2 _)]
    rfl
  exact congrArg (· * non_growth par bg (NonEnv.of par bg z mu sep)) h

theorem single_switch_g2S (par : Par) (bg : Bg) (I : Ints) (b c : Bool) (hs1 : ∀ z, par.magnification_bias1 z = 2 / 5) (hs2 : ∀ z, par.magnification_bias2 z = 2 / 5)  (z mu sep x : ℝ) :
    functions_single_integrated { par with correlation_contrib := { par.correlation_contrib with g2 := b } } bg I z mu sep x =
      functions_single_integrated { par with correlation_contrib := { par.correlation_contrib with g2 := c } } bg I z mu sep x := by
  have h : single_result { par with correlation_contrib := { par.correlation_contrib with g2 := b } } bg I (SingleEnv.of par bg I z mu sep x) =
      single_result { par with correlation_contrib := { par.correlation_contrib with g2 := c } } bg I (SingleEnv.of par bg I z mu sep x) := by
    unfold single_result
    rw [single_g2_len_zeroS { par with correlation_contrib := { par.correlation_contrib with g2 := b } } bg I _ (hs1 _) (hs2 _) (hs1 _) (hs2 _),
      single_g2_len_zeroS { par with correlation_contrib := { par.correlation_contrib with g2 := c } } bg I _ (hs1 _) (hs2 _) (hs1 _) (hs2 _)]
    rw [single_g2_g4_zeroS { par with correlation_contrib := { par.correlation_contrib with g2 := b } } bg I _ (hs1 _) (hs2 _) (hs1 _) (hs2 _),
      single_g2_g4_zeroS { par with correlation_contrib := { par.correlation_contrib with g2 := c } } bg I _ (hs1 _) (hs2 _) (hs1 _) (hs2 _)]
    rw [single_g2_g5_zeroS { par with correlation_contrib := { par.correlation_contrib with g2 := b } } bg I _ (hs1 _) (hs2 _) (hs1 _) (hs2 _),
      single_g2_g5_zeroS { par with correlation_contrib := { par.correlation_contrib with g2 := c } } bg I _ (hs1 _) (hs2 _) (hs1 _) (hs2 _)]
    rfl
  exact h

theorem double_switch_g2S (par : Par) (bg : Bg) (I : Ints) (b c : Bool) (hs1 : ∀ z, par.magnification_bias1 z = 2 / 5) (hs2 : ∀ z, par.magnification_bias2 z = 2 / 5)  (z mu sep x y : ℝ) :
    functions_double_integrated { par with correlation_contrib := { par.correlation_contrib with g2 := b } } bg I z mu sep x y =
      functions_double_integrated { par with correlation_contrib := { par.correlation_contrib with g2 := c } } bg I z mu sep x y := by
  have h : double_result { par with correlation_contrib := { par.correlation_contrib with g2 := b } } bg I (DoubleEnv.of par bg I z mu sep x y) =
      double_result { par with correlation_contrib := { par.correlation_contrib with g2 := c } } bg I (DoubleEnv.of par bg I z mu sep x y) := by
    unfold double_result
    rfl
  exact congrArg (· * (COFFE_H0 * par.h) ^ 4) h

theorem non_switch_g4S (par : Par) (bg : Bg) (I : Ints) (b c : Bool) (hs1 : ∀ z, par.magnification_bias1 z = 2 / 5) (hs2 : ∀ z, par.magnification_bias2 z = 2 / 5)  (z mu sep : ℝ) :
    functions_nonintegrated { par with correlation_contrib := { par.correlation_contrib with g4 := b } } bg I z mu sep =
      functions_nonintegrated { par with correlation_contrib := { par.correlation_contrib with g4 := c } } bg I z mu sep := by
  have h : non_result { par with correlation_contrib := { par.correlation_contrib with g4 := b } } bg I (NonEnv.of par bg z mu sep) =
      non_result { par with correlation_contrib := { par.correlation_contrib with g4 := c } } bg I (NonEnv.of par bg z mu sep) := by
    unfold non_result
    rfl
  exact congrArg (· * non_growth par bg (NonEnv.of par bg z mu sep)) h

theorem single_switch_g4S (par : Par) (bg : Bg) (I : Ints) (b c : Bool) (hs1 : ∀ z, par.magnification_bias1 z = 2 / 5) (hs2 : ∀ z, par.magnification_bias2 z = 2 / 5)  (z mu sep x : ℝ) :
    functions_single_integrated { par with correlation_contrib := { par.correlation_contrib with g4 := b } } bg I z mu sep x =
      functions_single_integrated { par with correlation_contrib := { par.correlation_contrib with g4 := c } } bg I z mu sep x := by
  have h : single_result { par with correlation_contrib := { par.correlation_contrib with g4 := b } } bg I (SingleEnv.of par bg I z mu sep x) =
      single_result { par with correlation_contrib := { par.correlation_contrib with g4 := c } } bg I (SingleEnv.of par bg I z mu sep x) := by
    unfold single_result
    rw [single_den_g4_zeroS { par with correlation_contrib := { par.correlation_contrib with g4 := b } } bg I _ (hs1 _) (hs2 _) (hs1 _) (hs2 _),
      single_den_g4_zeroS { par with correlation_contrib := { par.correlation_contrib with g4 := c } } bg I _ (hs1 _) (hs2 _) (hs1 _) (hs2 _)]
    rw [single_rsd_g4_zeroS { par with correlation_contrib := { par.correlation_contrib with g4 := b } } bg I _ (hs1 _) (hs2 _) (hs1 _) (hs2 _),
      single_rsd_g4_zeroS { par with correlation_contrib := { par.correlation_contrib with g4 := c } } bg I _ (hs1 _) (hs2 _) (hs1 _) (hs2 _)]
    rw [single_d1_g4_zeroS { par with correlation_contrib := { par.correlation_contrib with g4 := b } } bg I _ (hs1 _) (hs2 _) (hs1 _) (hs2 _),
      single_d1_g4_zeroS { par with correlation_contrib := { par.correlation_contrib with g4 := c } } bg I _ (hs1 _) (hs2 _) (hs1 _) (hs2 _)]
    rw [single_d2_g4_zeroS { par with correlation_contrib := { par.correlation_contrib with g4 := b } } bg I _ (hs1 _) (hs2 _) (hs1 _) (hs2 _),
      single_d2_g4_zeroS { par with correlation_contrib := { par.correlation_contrib with g4 := c } } bg I _ (hs1 _) (hs2 _) (hs1 _) (hs2 _)]
    rw [single_g1_g4_zeroS { par with correlation_contrib := { par.correlation_contrib with g4 := b } } bg I _ (hs1 _) (hs2 _) (hs1 _) (hs2 _),
      single_g1_g4_zeroS { par with correlation_contrib := { par.correlation_contrib with g4 := c } } bg I _ (hs1 _) (hs2 _) (hs1 _) (hs2 _)]
    rw [single_g2_g4_zeroS { par with correlation_contrib := { par.correlation_contrib with g4 := b } } bg I _ (hs1 _) (hs2 _) (hs1 _) (hs2 _),
      single_g2_g4_zeroS { par with correlation_contrib := { par.correlation_contrib with g4 := c } } bg I _ (hs1 _) (hs2 _) (hs1 _) (hs2 _)]
    rw [single_g3_g4_zeroS { par with correlation_contrib := { par.correlation_contrib with g4 := b } } bg I _ (hs1 _) (hs2 _) (hs1 _) (hs2 _),
      single_g3_g4_zeroS { par with correlation_contrib := { par.correlation_contrib with g4 := c } } bg I _ (hs1 _) (hs2 _) (hs1 _) (hs2 _)]
    rfl
  exact h

theorem double_switch_g4S (par : Par) (bg : Bg) (I : Ints) (b c : Bool) (hs1 : ∀ z, par.magnification_bias1 z = 2 / 5) (hs2 : ∀ z, par.magnification_bias2 z = 2 / 5)  (z mu sep x y : ℝ) :
    functions_double_integrated { par with correlation_contrib := { par.correlation_contrib with g4 := b } } bg I z mu sep x y =
      functions_double_integrated { par with correlation_contrib := { par.correlation_contrib with g4 := c } } bg I z mu sep x y := by
  have h : double_result { par with correlation_contrib := { par.correlation_contrib with g4 := b } } bg I (DoubleEnv.of par bg I z mu sep x y) =
      double_result { par with correlation_contrib := { par.correlation_contrib with g4 := c } } bg I (DoubleEnv.of par bg I z mu sep x y) := by
    unfold double_result
    rw [double_g4_g4_zeroS { par with correlation_contrib := { par.correlation_contrib with g4 := b } } bg I _ (hs1 _) (hs2 _) (hs1 _) (hs2 _),
      double_g4_g4_zeroS { par with correlation_contrib := { par.correlation_contrib with g4 := c } } bg I _ (hs1 _) (hs2 _) (hs1 _) (hs2 _)]
    rw [double_g4_len_zeroS { par with correlation_contrib := { par.correlation_contrib with g4 := b } } bg I _ (hs1 _) (hs2 _) (hs1 _) (hs2 _),
      double_g4_len_zeroS { par with correlation_contrib := { par.correlation_contrib with g4 := c } } bg I _ (hs1 _) (hs2 _) (hs1 _) (hs2 _)]
    rw [double_g4_g5_zeroS { par with correlation_contrib := { par.correlation_contrib with g4 := b } } bg I _ (hs1 _) (hs2 _) (hs1 _) (hs2 _),
      double_g4_g5_zeroS { par with correlation_contrib := { par.correlation_contrib with g4 := c } } bg I _ (hs1 _) (hs2 _) (hs1 _) (hs2 _)]
    rfl
  exact congrArg (· * (COFFE_H0 * par.h) ^ 4) h

theorem non_switch_g3F (par : Par) (bg : Bg) (I : Ints) (b c : Bool) (hf : ∀ z, bg.f z = 1)  (z mu sep : ℝ) :
    functions_nonintegrated { par with correlation_contrib := { par.correlation_contrib with g3 := b } } bg I z mu sep =
      functions_nonintegrated { par with correlation_contrib := { par.correlation_contrib with g3 := c } } bg I z mu sep := by
  have h : non_result { par with correlation_contrib := { par.correlation_contrib with g3 := b } } bg I (NonEnv.of par bg z mu sep) =
      non_result { par with correlation_contrib := { par.correlation_contrib with g3 := c } } bg I (NonEnv.of par bg z mu sep) := by
    unfold non_result
    rw [non_g3_g3_zeroF { par with correlation_contrib := { par.correlation_contrib with g3 := b } } bg I _ (hf _) (hf _),
      non_g3_g3_zeroF { par with correlation_contrib := { par.correlation_contrib with g3 := c } } bg I _ (hf _) (hf _)]
    rw [non_den_g3_zeroF { par with correlation_contrib := { par.correlation_contrib with g3 := b } } bg I _ (hf _) (hf _),
      non_den_g3_zeroF { par with correlation_contrib := { par.correlation_contrib with g3 := c } } bg I _ (hf _) (hf _)]
    rw [non_rsd_g3_zeroF { par with correlation_contrib := { par.correlation_contrib with g3 := b } } bg I _ (hf _) (hf _),
      non_rsd_g3_zeroF { par with correlation_contrib := { par.correlation_contrib with g3 := c } } bg I _ (hf _) (hf _)]
    rw [non_d1_g3_zeroF { par with correlation_contrib := { par.correlation_contrib with g3 := b } } bg I _ (hf _) (hf _),
      non_d1_g3_zeroF { par with correlation_contrib := { par.correlation_contrib with g3 := c } } bg I _ (hf _) (hf _)]
    rw [non_d2_g3_zeroF { par with correlation_contrib := { par.correlation_contrib with g3 := b } } bg I _ (hf _) (hf _),
      non_d2_g3_zeroF { par with correlation_contrib := { par.correlation_contrib with g3 := c } } bg I _ (hf _) (hf _)]
    rw [non_g1_g3_zeroF { par with correlation_contrib := { par.correlation_contrib with g3 := b } } bg I _ (hf _) (hf _),
      non_g1_g3_zeroF { par with correlation_contrib := { par.correlation_contrib with g3 := c } } bg I _ (hf _) (hf _)]
    rw [non_g2_g3_zeroF { par with correlation_contrib := { par.correlation_contrib with g3 := b } } bg I _ (hf _) (hf _),
      non_g2_g3_zeroF { par with correlation_contrib := { par.correlation_contrib with g3 := c } } bg I _ (hf _) (hf _)]
    rfl
  exact congrArg (· * non_growth par bg (NonEnv.of par bg z mu sep)) h

theorem single_switch_g3F (par : Par) (bg : Bg) (I : Ints) (b c : Bool) (hf : ∀ z, bg.f z = 1)  (z mu sep x : ℝ) :
    functions_single_integrated { par with correlation_contrib := { par.correlation_contrib with g3 := b } } bg I z mu sep x =
      functions_single_integrated { par with correlation_contrib := { par.correlation_contrib with g3 := c } } bg I z mu sep x := by
  have h : single_result { par with correlation_contrib := { par.correlation_contrib with g3 := b } } bg I (SingleEnv.of par bg I z mu sep x) =
      single_result { par with correlation_contrib := { par.correlation_contrib with g3 := c } } bg I (SingleEnv.of par bg I z mu sep x) := by
    unfold single_result
    rw [single_g3_len_zeroF { par with correlation_contrib := { par.correlation_contrib with g3 := b } } bg I _ hf,
      single_g3_len_zeroF { par with correlation_contrib := { par.correlation_contrib with g3 := c } } bg I _ hf]
    rw [single_g3_g4_zeroF { par with correlation_contrib := { par.correlation_contrib with g3 := b } } bg I _ hf,
      single_g3_g4_zeroF { par with correlation_contrib := { par.correlation_contrib with g3 := c } } bg I _ hf]
    rw [single_g3_g5_zeroF { par with correlation_contrib := { par.correlation_contrib with g3 := b } } bg I _ hf,
      single_g3_g5_zeroF { par with correlation_contrib := { par.correlation_contrib with g3 := c } } bg I _ hf]
    rfl
  exact h

theorem double_switch_g3F (par : Par) (bg : Bg) (I : Ints) (b c : Bool) (hf : ∀ z, bg.f z = 1)  (z mu sep x y : ℝ) :
    functions_double_integrated { par with correlation_contrib := { par.correlation_contrib with g3 := b } } bg I z mu sep x y =
      functions_double_integrated { par with correlation_contrib := { par.correlation_contrib with g3 := c } } bg I z mu sep x y := by
  have h : double_result { par with correlation_contrib := { par.correlation_contrib with g3 := b } } bg I (DoubleEnv.of par bg I z mu sep x y) =
      double_result { par with correlation_contrib := { par.correlation_contrib with g3 := c } } bg I (DoubleEnv.of par bg I z mu sep x y) := by
    unfold double_result
    rfl
  exact congrArg (· * (COFFE_H0 * par.h) ^ 4) h

theorem non_switch_g5F (par : Par) (bg : Bg) (I : Ints) (b c : Bool) (hf : ∀ z, bg.f z = 1) (olen : par.correlation_contrib.len = false) (z mu sep : ℝ) :
    functions_nonintegrated { par with correlation_contrib := { par.correlation_contrib with g5 := b } } bg I z mu sep =
      functions_nonintegrated { par with correlation_contrib := { par.correlation_contrib with g5 := c } } bg I z mu sep := by
  have h : non_result { par with correlation_contrib := { par.correlation_contrib with g5 := b } } bg I (NonEnv.of par bg z mu sep) =
      non_result { par with correlation_contrib := { par.correlation_contrib with g5 := c } } bg I (NonEnv.of par bg z mu sep) := by
    unfold non_result
    rfl
  exact congrArg (· * non_growth par bg (NonEnv.of par bg z mu sep)) h

theorem single_switch_g5F (par : Par) (bg : Bg) (I : Ints) (b c : Bool) (hf : ∀ z, bg.f z = 1) (olen : par.correlation_contrib.len = false) (z mu sep x : ℝ) :
    functions_single_integrated { par with correlation_contrib := { par.correlation_contrib with g5 := b } } bg I z mu sep x =
      functions_single_integrated { par with correlation_contrib := { par.correlation_contrib with g5 := c } } bg I z mu sep x := by
  have h : single_result { par with correlation_contrib := { par.correlation_contrib with g5 := b } } bg I (SingleEnv.of par bg I z mu sep x) =
      single_result { par with correlation_contrib := { par.correlation_contrib with g5 := c } } bg I (SingleEnv.of par bg I z mu sep x) := by
    unfold single_result
    rw [single_den_g5_zeroF { par with correlation_contrib := { par.correlation_contrib with g5 := b } } bg I _ hf,
      single_den_g5_zeroF { par with correlation_contrib := { par.correlation_contrib with g5 := c } } bg I _ hf]
    rw [single_rsd_g5_zeroF { par with correlation_contrib := { par.correlation_contrib with g5 := b } } bg I _ hf,
      single_rsd_g5_zeroF { par with correlation_contrib := { par.correlation_contrib with g5 := c } } bg I _ hf]
    rw [single_d1_g5_zeroF { par with correlation_contrib := { par.correlation_contrib with g5 := b } } bg I _ hf,
      single_d1_g5_zeroF { par with correlation_contrib := { par.correlation_contrib with g5 := c } } bg I _ hf]
    rw [single_d2_g5_zeroF { par with correlation_contrib := { par.correlation_contrib with g5 := b } } bg I _ hf,
      single_d2_g5_zeroF { par with correlation_contrib := { par.correlation_contrib with g5 := c } } bg I _ hf]
    rw [single_g1_g5_zeroF { par with correlation_contrib := { par.correlation_contrib with g5 := b } } bg I _ hf,
      single_g1_g5_zeroF { par with correlation_contrib := { par.correlation_contrib with g5 := c } } bg I _ hf]
    rw [single_g2_g5_zeroF { par with correlation_contrib := { par.correlation_contrib with g5 := b } } bg I _ hf,
      single_g2_g5_zeroF { par with correlation_contrib := { par.correlation_contrib with g5 := c } } bg I _ hf]
    rw [single_g3_g5_zeroF { par with correlation_contrib := { par.correlation_contrib with g5 := b } } bg I _ hf,
      single_g3_g5_zeroF { par with correlation_contrib := { par.correlation_contrib with g5 := c } } bg I _ hf]
    rfl
  exact h

theorem double_switch_g5F (par : Par) (bg : Bg) (I : Ints) (b c : Bool) (hf : ∀ z, bg.f z = 1) (olen : par.correlation_contrib.len = false) (z mu sep x y : ℝ) :
    functions_double_integrated { par with correlation_contrib := { par.correlation_contrib with g5 := b } } bg I z mu sep x y =
      functions_double_integrated { par with correlation_contrib := { par.correlation_contrib with g5 := c } } bg I z mu sep x y := by
  have h : double_result { par with correlation_contrib := { par.correlation_contrib with g5 := b } } bg I (DoubleEnv.of par bg I z mu sep x y) =
      double_result { par with correlation_contrib := { par.correlation_contrib with g5 := c } } bg I (DoubleEnv.of par bg I z mu sep x y) := by
    unfold double_result
    rw [double_g5_g5_zeroF { par with correlation_contrib := { par.correlation_contrib with g5 := b } } bg I _ hf,
      double_g5_g5_zeroF { par with correlation_contrib := { par.correlation_contrib with g5 := c } } bg I _ hf]
    rw [double_g4_g5_zeroF { par with correlation_contrib := { par.correlation_contrib with g5 := b } } bg I _ hf,
      double_g4_g5_zeroF { par with correlation_contrib := { par.correlation_contrib with g5 := c } } bg I _ hf]
    have qb : double_g5_len { par with correlation_contrib := { par.correlation_contrib with g5 := b } } bg I (DoubleEnv.of par bg I z mu sep x y) = 0 := if_neg (by simp [olen])
    have qc : double_g5_len { par with correlation_contrib := { par.correlation_contrib with g5 := c } } bg I (DoubleEnv.of par bg I z mu sep x y) = 0 := if_neg (by simp [olen])
    rw [qb, qc]
    clear qb qc
    rfl
  exact congrArg (· * (COFFE_H0 * par.h) ^ 4) h

theorem non_switch_g5G (par : Par) (bg : Bg) (I : Ints) (b c : Bool) (hg1 : ∀ z, bg.G1 z = 0) (hg2 : ∀ z, bg.G2 z = 0)  (z mu sep : ℝ) :
    functions_nonintegrated { par with correlation_contrib := { par.correlation_contrib with g5 := b } } bg I z mu sep =
      functions_nonintegrated { par with correlation_contrib := { par.correlation_contrib with g5 := c } } bg I z mu sep := by
  have h : non_result { par with correlation_contrib := { par.correlation_contrib with g5 := b } } bg I (NonEnv.of par bg z mu sep) =
      non_result { par with correlation_contrib := { par.correlation_contrib with g5 := c } } bg I (NonEnv.of par bg z mu sep) := by
    unfold non_result
    rfl
  exact congrArg (· * non_growth par bg (NonEnv.of par bg z mu sep)) h

theorem single_switch_g5G (par : Par) (bg : Bg) (I : Ints) (b c : Bool) (hg1 : ∀ z, bg.G1 z = 0) (hg2 : ∀ z, bg.G2 z = 0)  (z mu sep x : ℝ) :
    functions_single_integrated { par with correlation_contrib := { par.correlation_contrib with g5 := b } } bg I z mu sep x =
      functions_single_integrated { par with correlation_contrib := { par.correlation_contrib with g5 := c } } bg I z mu sep x := by
  have h : single_result { par with correlation_contrib := { par.correlation_contrib with g5 := b } } bg I (SingleEnv.of par bg I z mu sep x) =
      single_result { par with correlation_contrib := { par.correlation_contrib with g5 := c } } bg I (SingleEnv.of par bg I z mu sep x) := by
    unfold single_result
    rw [single_den_g5_zeroG { par with correlation_contrib := { par.correlation_contrib with g5 := b } } bg I _ hg1 hg2,
      single_den_g5_zeroG { par with correlation_contrib := { par.correlation_contrib with g5 := c } } bg I _ hg1 hg2]
    rw [single_rsd_g5_zeroG { par with correlation_contrib := { par.correlation_contrib with g5 := b } } bg I _ hg1 hg2,
      single_rsd_g5_zeroG { par with correlation_contrib := { par.correlation_contrib with g5 := c } } bg I _ hg1 hg2]
    rw [single_d1_g5_zeroG { par with correlation_contrib := { par.correlation_contrib with g5 := b } } bg I _ hg1 hg2,
      single_d1_g5_zeroG { par with correlation_contrib := { par.correlation_contrib with g5 := c } } bg I _ hg1 hg2]
    rw [single_d2_g5_zeroG { par with correlation_contrib := { par.correlation_contrib with g5 := b } } bg I _ hg1 hg2,
      single_d2_g5_zeroG { par with correlation_contrib := { par.correlation_contrib with g5 := c } } bg I _ hg1 hg2]
    rw [single_g1_g5_zeroG { par with correlation_contrib := { par.correlation_contrib with g5 := b } } bg I _ hg1 hg2,
      single_g1_g5_zeroG { par with correlation_contrib := { par.correlation_contrib with g5 := c } } bg I _ hg1 hg2]
    rw [single_g2_g5_zeroG { par with correlation_contrib := { par.correlation_contrib with g5 := b } } bg I _ hg1 hg2,
      single_g2_g5_zeroG { par with correlation_contrib := { par.correlation_contrib with g5 := c } } bg I _ hg1 hg2]
    rw [single_g3_g5_zeroG { par with correlation_contrib := { par.correlation_contrib with g5 := b } } bg I _ hg1 hg2,
      single_g3_g5_zeroG { par with correlation_contrib := { par.correlation_contrib with g5 := c } } bg I _ hg1 hg2]
    rfl
  exact h

theorem double_switch_g5G (par : Par) (bg : Bg) (I : Ints) (b c : Bool) (hg1 : ∀ z, bg.G1 z = 0) (hg2 : ∀ z, bg.G2 z = 0)  (z mu sep x y : ℝ) :
    functions_double_integrated { par with correlation_contrib := { par.correlation_contrib with g5 := b } } bg I z mu sep x y =
      functions_double_integrated { par with correlation_contrib := { par.correlation_contrib with g5 := c } } bg I z mu sep x y := by
  have h : double_result { par with correlation_contrib := { par.correlation_contrib with g5 := b } } bg I (DoubleEnv.of par bg I z mu sep x y) =
      double_result { par with correlation_contrib := { par.correlation_contrib with g5 := c } } bg I (DoubleEnv.of par bg I z mu sep x y) := by
    unfold double_result
    rw [double_g5_g5_zeroG { par with correlation_contrib := { par.correlation_contrib with g5 := b } } bg I _ hg1 hg2,
      double_g5_g5_zeroG { par with correlation_contrib := { par.correlation_contrib with g5 := c } } bg I _ hg1 hg2]
    rw [double_g5_len_zeroG { par with correlation_contrib := { par.correlation_contrib with g5 := b } } bg I _ hg1 hg2,
      double_g5_len_zeroG { par with correlation_contrib := { par.correlation_contrib with g5 := c } } bg I _ hg1 hg2]
    rw [double_g4_g5_zeroG { par with correlation_contrib := { par.correlation_contrib with g5 := b } } bg I _ hg1 hg2,
      double_g4_g5_zeroG { par with correlation_contrib := { par.correlation_contrib with g5 := c } } bg I _ hg1 hg2]
    rfl
  exact congrArg (· * (COFFE_H0 * par.h) ^ 4) h

theorem non_switch_d1G (par : Par) (bg : Bg) (I : Ints) (b c : Bool) (hg1 : ∀ z, bg.G1 z = 0) (hg2 : ∀ z, bg.G2 z = 0) (od2 : par.correlation_contrib.d2 = false) (og1 : par.correlation_contrib.g1 = false) (og2 : par.correlation_contrib.g2 = false) (og3 : par.correlation_contrib.g3 = false) (og4 : par.correlation_contrib.g4 = false) (z mu sep : ℝ) :
    functions_nonintegrated { par with correlation_contrib := { par.correlation_contrib with d1 := b } } bg I z mu sep =
      functions_nonintegrated { par with correlation_contrib := { par.correlation_contrib with d1 := c } } bg I z mu sep := by
  have h : non_result { par with correlation_contrib := { par.correlation_contrib with d1 := b } } bg I (NonEnv.of par bg z mu sep) =
      non_result { par with correlation_contrib := { par.correlation_contrib with d1 := c } } bg I (NonEnv.of par bg z mu sep) := by
    unfold non_result
    rw [non_d1_d1_zeroG { par with correlation_contrib := { par.correlation_contrib with d1 := b } } bg I _ (hg1 _) (hg2 _) (hg1 _) (hg2 _),
      non_d1_d1_zeroG { par with correlation_contrib := { par.correlation_contrib with d1 := c } } bg I _ (hg1 _) (hg2 _) (hg1 _) (hg2 _)]
    rw [non_den_d1_zeroG { par with correlation_contrib := { par.correlation_contrib with d1 := b } } bg I _ (hg1 _) (hg2 _) (hg1 _) (hg2 _),
      non_den_d1_zeroG { par with correlation_contrib := { par.correlation_contrib with d1 := c } } bg I _ (hg1 _) (hg2 _) (hg1 _) (hg2 _)]
    rw [non_rsd_d1_zeroG { par with correlation_contrib := { par.correlation_contrib with d1 := b } } bg I _ (hg1 _) (hg2 _) (hg1 _) (hg2 _),
      non_rsd_d1_zeroG { par with correlation_contrib := { par.correlation_contrib with d1 := c } } bg I _ (hg1 _) (hg2 _) (hg1 _) (hg2 _)]
    have qb : non_d1_d2 { par with correlation_contrib := { par.correlation_contrib with d1 := b } } bg I (NonEnv.of par bg z mu sep) = 0 := if_neg (by simp [od2])
    have qc : non_d1_d2 { par with correlation_contrib := { par.correlation_contrib with d1 := c } } bg I (NonEnv.of par bg z mu sep) = 0 := if_neg (by simp [od2])
    rw [qb, qc]
    clear qb qc
    have qb : non_d1_g1 { par with correlation_contrib := { par.correlation_contrib with d1 := b } } bg I (NonEnv.of par bg z mu sep) = 0 := if_neg (by simp [og1])
    have qc : non_d1_g1 { par with correlation_contrib := { par.correlation_contrib with d1 := c } } bg I (NonEnv.of par bg z mu sep) = 0 := if_neg (by simp [og1])
    rw [qb, qc]
    clear qb qc
    have qb : non_d1_g2 { par with correlation_contrib := { par.correlation_contrib with d1 := b } } bg I (NonEnv.of par bg z mu sep) = 0 := if_neg (by simp [og2])
    have qc : non_d1_g2 { par with correlation_contrib := { par.correlation_contrib with d1 := c } } bg I (NonEnv.of par bg z mu sep) = 0 := if_neg (by simp [og2])
    rw [qb, qc]
    clear qb qc
    have qb : non_d1_g3 { par with correlation_contrib := { par.correlation_contrib with d1 := b } } bg I (NonEnv.of par bg z mu sep) = 0 := if_neg (by simp [og3])
    have qc : non_d1_g3 { par with correlation_contrib := { par.correlation_contrib with d1 := c } } bg I (NonEnv.of par bg z mu sep) = 0 := if_neg (by simp [og3])
    rw [qb, qc]
    clear qb qc
    rfl
  exact congrArg (· * non_growth par bg (NonEnv.of par bg z mu sep)) h

theorem single_switch_d1G (par : Par) (bg : Bg) (I : Ints) (b c : Bool) (hg1 : ∀ z, bg.G1 z = 0) (hg2 : ∀ z, bg.G2 z = 0) (od2 : par.correlation_contrib.d2 = false) (og1 : par.correlation_contrib.g1 = false) (og2 : par.correlation_contrib.g2 = false) (og3 : par.correlation_contrib.g3 = false) (og4 : par.correlation_contrib.g4 = false) (z mu sep x : ℝ) :
    functions_single_integrated { par with correlation_contrib := { par.correlation_contrib with d1 := b } } bg I z mu sep x =
      functions_single_integrated { par with correlation_contrib := { par.correlation_contrib with d1 := c } } bg I z mu sep x := by
  have h : single_result { par with correlation_contrib := { par.correlation_contrib with d1 := b } } bg I (SingleEnv.of par bg I z mu sep x) =
      single_result { par with correlation_contrib := { par.correlation_contrib with d1 := c } } bg I (SingleEnv.of par bg I z mu sep x) := by
    unfold single_result
    rw [single_d1_len_zeroG { par with correlation_contrib := { par.correlation_contrib with d1 := b } } bg I _ hg1 hg2,
      single_d1_len_zeroG { par with correlation_contrib := { par.correlation_contrib with d1 := c } } bg I _ hg1 hg2]
    rw [single_d1_g5_zeroG { par with correlation_contrib := { par.correlation_contrib with d1 := b } } bg I _ hg1 hg2,
      single_d1_g5_zeroG { par with correlation_contrib := { par.correlation_contrib with d1 := c } } bg I _ hg1 hg2]
    have qb : single_d1_g4 { par with correlation_contrib := { par.correlation_contrib with d1 := b } } bg I (SingleEnv.of par bg I z mu sep x) = 0 := if_neg (by simp [og4])
    have qc : single_d1_g4 { par with correlation_contrib := { par.correlation_contrib with d1 := c } } bg I (SingleEnv.of par bg I z mu sep x) = 0 := if_neg (by simp [og4])
    rw [qb, qc]
    clear qb qc
    rfl
  exact h

theorem double_switch_d1G (par : Par) (bg : Bg) (I : Ints) (b c : Bool) (hg1 : ∀ z, bg.G1 z = 0) (hg2 : ∀ z, bg.G2 z = 0) (od2 : par.correlation_contrib.d2 = false) (og1 : par.correlation_contrib.g1 = false) (og2 : par.correlation_contrib.g2 = false) (og3 : par.correlation_contrib.g3 = false) (og4 : par.correlation_contrib.g4 = false) (z mu sep x y : ℝ) :
    functions_double_integrated { par with correlation_contrib := { par.correlation_contrib with d1 := b } } bg I z mu sep x y =
      functions_double_integrated { par with correlation_contrib := { par.correlation_contrib with d1 := c } } bg I z mu sep x y := by
  have h : double_result { par with correlation_contrib := { par.correlation_contrib with d1 := b } } bg I (DoubleEnv.of par bg I z mu sep x y) =
      double_result { par with correlation_contrib := { par.correlation_contrib with d1 := c } } bg I (DoubleEnv.of par bg I z mu sep x y) := by
    unfold double_result
    rfl
  exact congrArg (· * (COFFE_H0 * par.h) ^ 4) h

end Coffe
