import Verif.Spec.ClassInput
import Verif.Props.TextWrite
import Verif.Props.PyCaches

/-!
# C86: CLASS is run with the settings of the object
-/

namespace Coffe
open Classical

theorem receives_of {f : List (String × Option Text)} {n : String} {x : ℝ} (R : Rounding) (h : f.lookup n = some (some (fmt R 6 x))) :
    Receives f n x := by
  refine ⟨_, h, ?_⟩
  have e := atof_fmt R 6 x [] (by simp)
  rw [List.append_nil] at e
  rw [e]
  refine (shown_error R 6 x).trans_eq ?_
  norm_num

/-- **C86**: every number of the settings reaches CLASS under its name, with seven digits; the masses of neutrinos are as many as
set; the helium fraction is passed on unless it is zero. -/
theorem C86_partial (R : Rounding) (p : PyPar) :
    (∀ x ∈ classNumbers, Receives (class_file R p.classView) x.1 (x.2 p)) ∧
    (class_file R p.classView).lookup "N_ncdm" = some (some (fmt_int p.N_ncdm)) ∧
    (class_file R p.classView).lookup "l_max_g" = some (some (fmt_int p.prec.l_max_g)) ∧
    (class_file R p.classView).lookup "l_max_ur" = some (some (fmt_int p.prec.l_max_ur)) ∧
    (1 / 10 ^ 10 < |p.YHe| → Receives (class_file R p.classView) "YHe" p.YHe) ∧
    (p.pk_type = .COFFE_PK_NONLINEAR_HALOFIT → (class_file R p.classView).lookup "non linear" = some (some "halofit".toList)) ∧
    (p.pk_type = .COFFE_PK_NONLINEAR_HMCODE → (class_file R p.classView).lookup "non linear" = some (some "hmcode".toList)) := by
  refine ⟨fun x hx => ?_, ?_, ?_, ?_, fun h => receives_of R ?_, fun h => ?_, fun h => ?_⟩
  · simp only [classNumbers, List.mem_cons, List.not_mem_nil, or_false] at hx
    rcases hx with rfl | rfl | rfl | rfl | rfl | rfl | rfl | rfl | rfl | rfl | rfl | rfl | rfl | rfl | rfl <;>
    · refine receives_of R ?_
      unfold class_file
      split_ifs <;> simp [List.lookup, PyPar.classView]
  · unfold class_file; split_ifs <;> simp [List.lookup, PyPar.classView]
  · unfold class_file; split_ifs <;> simp [List.lookup, PyPar.classView]
  · unfold class_file; split_ifs <;> simp [List.lookup, PyPar.classView]
  · unfold class_file; rw [if_pos (show 1 / 10 ^ 10 < |p.classView.YHe| from h)]; simp [List.lookup, PyPar.classView]
  · unfold class_file; split_ifs <;> simp [List.lookup, PyPar.classView, h]
  · unfold class_file; split_ifs <;> simp [List.lookup, PyPar.classView, h]

/-- No name occurs twice, and there is room for all. -/
theorem C86_names (R : Rounding) (v : ClassView) :
    ((class_file R v).map Prod.fst).Nodup ∧ (class_file R v).length ≤ class_parameters_len := by
  unfold class_file class_parameters_len
  split_ifs <;> simp

/-- The amplitude: `A_s` if it is larger than 10⁻¹⁰, and `sigma8` otherwise; never both. -/
theorem C86_amplitude_partial (R : Rounding) (p : PyPar) :
    (1 / 10 ^ 10 < |p.A_s| → Receives (class_file R p.classView) "A_s" p.A_s ∧ (class_file R p.classView).lookup "sigma8" = none) ∧
    (|p.A_s| ≤ 1 / 10 ^ 10 → Receives (class_file R p.classView) "sigma8" p.sigma8 ∧ (class_file R p.classView).lookup "A_s" = none) := by
  refine ⟨fun h => ⟨receives_of R ?_, ?_⟩, fun h => ⟨receives_of R ?_, ?_⟩⟩
  · unfold class_file; rw [if_pos (show 1 / 10 ^ 10 < |p.classView.A_s| from h)]; split_ifs <;> simp [List.lookup, PyPar.classView]
  · unfold class_file; rw [if_pos (show 1 / 10 ^ 10 < |p.classView.A_s| from h)]; split_ifs <;> simp [List.lookup]
  · unfold class_file; rw [if_neg (show ¬ 1 / 10 ^ 10 < |p.classView.A_s| from not_lt.2 h)]
    split_ifs <;> simp [List.lookup, PyPar.classView]
  · unfold class_file; rw [if_neg (show ¬ 1 / 10 ^ 10 < |p.classView.A_s| from not_lt.2 h)]; split_ifs <;> simp [List.lookup]

theorem setAs (x : ℝ) (h1 : -100 ≤ x) (h2 : x ≤ 100) (s : PyObj) :
    setattr .A_s (.float x) s = (.ok (), (s.upd fun p => { p with A_s := x }).freeSpectral) := by
  have e : checkParameter (.float x) .intFloat (-100) 100 s = (.ok x, s) := by
    show (if x < -100 then _ else if x > 100 then _ else _ : Py ℝ) s = _
    rw [if_neg (not_lt.2 h1), if_neg (not_lt.2 h2)]; rfl
  exact Py.bind_ok e

/-- **C86** fails for the amplitude: once `A_s` has been assigned, assigning `sigma8` has no effect on what CLASS is given, although
the object shows the new `sigma8`. -/
theorem C86_sigma8_false (R : Rounding) (s : PyObj) (h : 1 / 10 ^ 10 < |s.par.A_s|) (x : ℝ) (h1 : -100 ≤ x) (h2 : x ≤ 100)
    (hc : ¬ allclose x s.par.sigma8) :
    ∃ s', setattr .sigma8 (.float x) s = (.ok (), s') ∧ getattr s'.par .sigma8 = .float x ∧
      class_file R s'.par.classView = class_file R s.par.classView := by
  have e : checkParameter (.float x) .intFloat (-100) 100 s = (.ok x, s) := by
    show (if x < -100 then _ else if x > 100 then _ else _ : Py ℝ) s = _
    rw [if_neg (not_lt.2 h1), if_neg (not_lt.2 h2)]; rfl
  refine ⟨(s.upd fun p => { p with sigma8 := x }).freeSpectral, ?_, rfl, ?_⟩
  · show guarded (.float x) .intFloat (-100) 100 (·.sigma8) _ s = _
    unfold guarded
    rw [Py.bind_ok e, Py.bind_ok (Py.get_eq _), if_neg hc]
    rfl
  · unfold class_file
    rw [if_pos (show 1 / 10 ^ 10 < |s.par.classView.A_s| from h),
      if_pos (show 1 / 10 ^ 10 < |((s.upd fun p => { p with sigma8 := x }).freeSpectral).par.classView.A_s| from h)]
    rfl

/-- `A_s = 2e-9`, then `sigma8 = 0.9`. -/
example : ∃ s, setattr .A_s (.float 2e-9) (fresh PyPar.default) = (.ok (), s) ∧ 1 / 10 ^ 10 < |s.par.A_s| ∧ ¬ allclose 0.9 s.par.sigma8 := by
  refine ⟨_, setAs 2e-9 (by norm_num) (by norm_num) _, ?_, ?_⟩
  · show (1 / 10 ^ 10 : ℝ) < |2e-9|
    rw [abs_of_pos (by norm_num)]; norm_num
  · show ¬ allclose 0.9 0.8156
    unfold allclose
    rw [abs_of_pos (by norm_num), abs_of_pos (by norm_num)]; norm_num

/-- **C86** fails for small amplitudes: an `A_s` of 10⁻¹⁰ is accepted and ignored. -/
theorem C86_small_false (R : Rounding) : ∃ s : PyObj, setattr .A_s (.float (1 / 10 ^ 10)) (fresh PyPar.default) = (.ok (), s) ∧
    getattr s.par .A_s = .float (1 / 10 ^ 10) ∧ class_file R s.par.classView = class_file R PyPar.default.classView := by
  refine ⟨_, setAs _ (by norm_num) (by norm_num) _, rfl, ?_⟩
  unfold class_file
  rw [if_neg (show ¬ 1 / 10 ^ 10 < |PyPar.default.classView.A_s| by norm_num [PyPar.classView, PyPar.default]),
    if_neg (show ¬ (1 / 10 ^ 10 : ℝ) < |(((fresh PyPar.default).upd fun p => { p with A_s := 1 / 10 ^ 10 }).freeSpectral).par.classView.A_s| from
      (show ¬ (1 / 10 ^ 10 : ℝ) < |1 / 10 ^ 10| by rw [abs_of_pos (by norm_num)]; exact lt_irrefl _))]
  rfl

/-- **C86** fails beyond seven digits: different amplitudes give the same input. -/
theorem C86_digits_false (R : Rounding) : ∃ p q : PyPar, p.A_s = 1 ∧ q.A_s = 1 + 1 / 10 ^ 7 ∧
    class_file R p.classView = class_file R q.classView := by
  have hlog : ∀ x : ℝ, 1 ≤ x → x < 10 → Int.log 10 |x| = 0 := by
    intro x h1 h2
    have hp : 0 < |x| := abs_pos.2 (by linarith)
    apply le_antisymm
    · have := (Int.lt_zpow_iff_log_lt (b := 10) (x := 1) (by norm_num) hp).1 (by rw [abs_of_pos (by linarith)]; norm_num; exact h2)
      omega
    · exact (Int.zpow_le_iff_le_log (b := 10) (by norm_num) hp).1 (by rw [abs_of_pos (by linarith)]; norm_num; exact h1)
  have hr : ∀ y : ℝ, 10 ^ 6 ≤ y → y < 10 ^ 6 + 1 / 2 → R.rnd y = 10 ^ 6 := by
    intro y h1 h2
    have h := abs_le.1 (R.near y)
    have l1 : ((10 ^ 6 - 1 : ℤ) : ℝ) < R.rnd y := by push_cast; linarith
    have l2 : (R.rnd y : ℝ) < ((10 ^ 6 + 1 : ℤ) : ℝ) := by push_cast; linarith
    have l1' : (10 ^ 6 - 1 : ℤ) < R.rnd y := by exact_mod_cast l1
    have l2' : R.rnd y < (10 ^ 6 + 1 : ℤ) := by exact_mod_cast l2
    omega
  have hf : ∀ x : ℝ, 1 ≤ x → x < 1 + 4e-7 → fmt R 6 x = fmt_mantissa (10 ^ 6) ++ 'e' :: fmt_exponent 0 := by
    intro x h1 h2
    have hs : sci R 6 x = (0, 10 ^ 6) := by
      unfold sci
      dsimp only
      rw [hlog x h1 (by linarith), abs_of_pos (by linarith : 0 < x)]
      rw [hr _ (by norm_num; linarith) (by norm_num; linarith)]
      rw [show ((10 : ℤ) ^ 6).toNat = 10 ^ 6 from rfl, if_neg (by norm_num)]
    unfold fmt
    rw [if_neg (by linarith), if_neg (by linarith), hs]
    rfl
  refine ⟨{ PyPar.default with A_s := 1 }, { PyPar.default with A_s := 1 + 1 / 10 ^ 7 }, rfl, rfl, ?_⟩
  unfold class_file
  rw [if_pos (show (1 / 10 ^ 10 : ℝ) < |(PyPar.classView { PyPar.default with A_s := 1 }).A_s| from
      (show (1 / 10 ^ 10 : ℝ) < |1| by norm_num)),
    if_pos (show (1 / 10 ^ 10 : ℝ) < |(PyPar.classView { PyPar.default with A_s := 1 + 1 / 10 ^ 7 }).A_s| from
      (show (1 / 10 ^ 10 : ℝ) < |1 + 1 / 10 ^ 7| by rw [abs_of_pos (by norm_num)]; norm_num))]
  have e : fmt R 6 (PyPar.classView { PyPar.default with A_s := 1 }).A_s
      = fmt R 6 (PyPar.classView { PyPar.default with A_s := 1 + 1 / 10 ^ 7 }).A_s :=
    (hf 1 le_rfl (by norm_num)).trans (hf (1 + 1 / 10 ^ 7) (by norm_num) (by norm_num)).symm
  rw [e]
  rfl

/-- **C86** fails for the largest wave number: the setting is in 1/Mpc, CLASS takes the number in h/Mpc, so for `h < 1` the spectrum
ends below it. -/
theorem C86_units_false (R : Rounding) (p : PyPar) (hk : 0 < p.k_max) (hh : 0 < p.h) (h1 : p.h ≤ 0.99) :
    ∃ t, (class_file R p.classView).lookup "P_k_max_h/Mpc" = some (some t) ∧ atof t * p.h < p.k_max := by
  have e : Receives (class_file R p.classView) "P_k_max_h/Mpc" p.k_max := receives_of R (by
    unfold class_file; split_ifs <;> simp [List.lookup, PyPar.classView])
  obtain ⟨t, h, ht⟩ := e
  refine ⟨t, h, ?_⟩
  rw [abs_of_pos hk] at ht
  have := (abs_le.1 ht).2
  nlinarith

/-- **C86** fails for the linear spectrum types: the entry `non linear` has a name but no value, so CLASS reads a text that has never
been written. -/
theorem C86_unset_false (R : Rounding) (p : PyPar) (hp : p.pk_type = .COFFE_PK_LINEAR ∨ p.pk_type = .COFFE_PK_LINEAR_CLASS) :
    (class_file R p.classView).lookup "non linear" = some none := by
  rcases hp with h | h <;> unfold class_file <;> split_ifs <;> simp [List.lookup, PyPar.classView, h]

/-- The settings of a new object. -/
example : PyPar.default.pk_type = .COFFE_PK_LINEAR ∧ 0 < PyPar.default.k_max ∧ 0 < PyPar.default.h ∧ PyPar.default.h ≤ 0.99 := by
  refine ⟨rfl, ?_, ?_, ?_⟩ <;> norm_num [PyPar.default]

/-- What CLASS is given by a new object: among others `h` and, as amplitude, `sigma8`. -/
example (R : Rounding) : Receives (class_file R PyPar.default.classView) "h" 0.67 ∧
    Receives (class_file R PyPar.default.classView) "sigma8" 0.8156 := by
  refine ⟨(C86_partial R PyPar.default).1 ("h", fun p => p.h) (by simp [classNumbers]),
    ((C86_amplitude_partial R PyPar.default).2 ?_).1⟩
  norm_num [PyPar.default]

end Coffe
