import Verif.Model.C.Text
import Mathlib.Tactic.Linarith
import Mathlib.Tactic.Ring
import Mathlib.Tactic.FieldSimp
import Mathlib.Tactic.Positivity

/-! # Helper lemmas: printing and parsing numbers -/

namespace Coffe

theorem takeWhile_append_stop {α : Type} (p : α → Bool) (l r : List α) (hl : ∀ c ∈ l, p c = true)
    (hr : ∀ c, r.head? = some c → p c = false) : (l ++ r).takeWhile p = l ∧ (l ++ r).dropWhile p = r := by
  induction l with
  | nil =>
    cases r with
    | nil => simp
    | cons c r => simp [hr c rfl]
  | cons a l ih =>
    have := ih fun c hc => hl c (by simp [hc])
    simp [hl a (by simp), this]

theorem digits_append (l r : Text) (hl : ∀ c ∈ l, c.isDigit = true) (hr : ∀ c, r.head? = some c → c.isDigit = false) :
    digits (l ++ r) = (l, r) := by
  unfold digits
  rw [(takeWhile_append_stop Char.isDigit l r hl hr).1, (takeWhile_append_stop Char.isDigit l r hl hr).2]

theorem toDigits_isDigit {n : ℕ} : ∀ c ∈ Nat.toDigits 10 n, c.isDigit = true :=
  fun _ hc => Nat.isDigit_of_mem_toDigits (by norm_num) (by norm_num) hc

theorem length_toDigits {m p : ℕ} (h1 : 10 ^ p ≤ m) (h2 : m < 10 ^ (p + 1)) : (Nat.toDigits 10 m).length = p + 1 := by
  apply le_antisymm
  · exact (Nat.length_toDigits_le_iff (by norm_num) (by omega)).2 h2
  · rcases Nat.eq_zero_or_pos p with rfl | hp
    · exact Nat.length_toDigits_pos
    · by_contra h
      have := (Nat.length_toDigits_le_iff (b := 10) (n := m) (k := p) (by norm_num) hp).1 (by omega)
      omega

/-- The exponent is read back. -/
theorem exponent_of_fmt (e : ℤ) (rest : Text) (hr : ∀ c, rest.head? = some c → c.isDigit = false) :
    exponent_of ('e' :: fmt_exponent e ++ rest) = e := by
  have key : ∀ l : Text, l ≠ [] → (∀ c ∈ l, c.isDigit = true) → Nat.ofDigitChars 10 l 0 = e.natAbs →
      exponent_of ('e' :: (if e < 0 then '-' else '+') :: l ++ rest) = e := by
    intro l hne hl hv
    unfold exponent_of
    simp only [List.cons_append]
    by_cases h : e < 0
    · simp only [h, if_true, sign_of, digits_append l rest hl hr, hne, ne_eq, not_false_eq_true, and_true, true_or, hv]
      omega
    · simp only [h, if_false, sign_of, digits_append l rest hl hr, hne, ne_eq, not_false_eq_true, and_true, true_or,
        if_true, hv]
      omega
  unfold fmt_exponent
  by_cases h : e.natAbs < 10
  · rw [if_pos h]
    refine key _ (by simp) ?_ ?_
    · intro c hc
      rcases List.mem_cons.1 hc with rfl | hc
      · rfl
      · exact toDigits_isDigit c hc
    · rw [Nat.ofDigitChars_cons]
      simpa using Nat.ofDigitChars_ten_toDigits
  · rw [if_neg h]
    exact key _ Nat.toDigits_ne_nil toDigits_isDigit Nat.ofDigitChars_ten_toDigits

theorem not_space_digit {c : Char} (h : c.isDigit = true) : isSpace c = false := by
  unfold isSpace
  rw [Bool.eq_false_iff]
  intro hs
  simp only [Bool.or_eq_true, decide_eq_true_eq] at hs
  rcases hs with ((((rfl | rfl) | rfl) | rfl) | rfl) | rfl <;> exact absurd h (by decide)

theorem isDigit_dot : Char.isDigit '.' = false := by decide

/-- A number in scientific notation is read as its value. -/
theorem atof_sci (neg : Bool) (d : Char) (ds : Text) (e : ℤ) (rest : Text) (hd : d.isDigit = true)
    (hds : ∀ c ∈ ds, c.isDigit = true) (hr : ∀ c, rest.head? = some c → c.isDigit = false) :
    atof ((if neg then ['-'] else []) ++ (d :: '.' :: ds) ++ 'e' :: fmt_exponent e ++ rest) =
      (if neg then -1 else 1) * (Nat.ofDigitChars 10 (d :: ds) 0 : ℝ) * 10 ^ (e - ds.length) := by
  have hsign : ∀ (n : Bool) (s : Text), sign_of (((if n then ['-'] else []) ++ (d :: s)).dropWhile isSpace) =
      (if n then -1 else 1, d :: s) := by
    intro n s
    cases n
    · simp only [Bool.false_eq_true, if_false, List.nil_append, List.dropWhile_cons, not_space_digit hd]
      unfold sign_of
      split
      · rename_i h; simp at h; exact absurd hd (by rw [h.1]; decide)
      · rename_i h; simp at h; exact absurd hd (by rw [h.1]; decide)
      · rfl
    · simp [isSpace, sign_of]
  have e1 : (if neg then ['-'] else []) ++ (d :: '.' :: ds) ++ 'e' :: fmt_exponent e ++ rest =
      (if neg then ['-'] else []) ++ (d :: ('.' :: (ds ++ ('e' :: fmt_exponent e ++ rest)))) := by simp
  have e2 : digits (d :: ('.' :: (ds ++ ('e' :: fmt_exponent e ++ rest)))) =
      ([d], '.' :: (ds ++ ('e' :: fmt_exponent e ++ rest))) :=
    digits_append [d] _ (by simpa using hd) (by simp [isDigit_dot])
  have e3 : digits (ds ++ ('e' :: fmt_exponent e ++ rest)) = (ds, 'e' :: fmt_exponent e ++ rest) :=
    digits_append ds _ hds (by intro c hc; simp at hc; rw [← hc]; decide)
  unfold atof
  rw [e1, hsign]
  simp only [e2, fraction_of, e3, exponent_of_fmt e rest hr]
  rw [if_neg (by simp)]
  congr 2
  · cases neg <;> simp

/-! ## Rounding -/

theorem rnd_int (R : Rounding) (n : ℤ) : R.rnd n = n := by
  have h := abs_le.1 (R.near n)
  have h1 : (R.rnd n : ℝ) < n + 1 := by linarith
  have h2 : (n : ℝ) - 1 < R.rnd n := by linarith
  have h1' : R.rnd n < n + 1 := by exact_mod_cast h1
  have h2' : n - 1 < R.rnd n := by exact_mod_cast h2
  omega

theorem scale_bounds {x : ℝ} (hx : x ≠ 0) (p : ℕ) :
    (10 : ℝ) ^ p ≤ |x| * 10 ^ ((p : ℤ) - Int.log 10 |x|) ∧ |x| * 10 ^ ((p : ℤ) - Int.log 10 |x|) < 10 ^ (p + 1) := by
  have hx' : 0 < |x| := abs_pos.2 hx
  have h1 : (10 : ℝ) ^ Int.log 10 |x| ≤ |x| := by
    have := Int.zpow_log_le_self (b := 10) (by norm_num) hx'
    exact_mod_cast this
  have h2 : |x| < (10 : ℝ) ^ (Int.log 10 |x| + 1) := by
    have := Int.lt_zpow_succ_log_self (b := 10) (by norm_num) |x|
    exact_mod_cast this
  have hp : (0 : ℝ) < 10 ^ ((p : ℤ) - Int.log 10 |x|) := zpow_pos (by norm_num) _
  constructor
  · calc (10 : ℝ) ^ p = 10 ^ Int.log 10 |x| * 10 ^ ((p : ℤ) - Int.log 10 |x|) := by
          rw [← zpow_add₀ (by norm_num), ← zpow_natCast]; congr 1; ring
      _ ≤ _ := by gcongr
  · calc |x| * 10 ^ ((p : ℤ) - Int.log 10 |x|) < 10 ^ (Int.log 10 |x| + 1) * 10 ^ ((p : ℤ) - Int.log 10 |x|) := by gcongr
      _ = 10 ^ (p + 1) := by
          rw [← zpow_add₀ (by norm_num), ← zpow_natCast]; congr 1; push_cast; ring

/-- The digits that are shown: `p + 1` of them, with an error of at most half a unit of the last one. -/
theorem sci_spec (R : Rounding) (p : ℕ) {x : ℝ} (hx : x ≠ 0) :
    10 ^ p ≤ (sci R p x).2 ∧ (sci R p x).2 < 10 ^ (p + 1) ∧
      abs (((sci R p x).2 : ℝ) * 10 ^ ((sci R p x).1 - p) - |x|) ≤ 1 / 2 * 10 ^ (Int.log 10 |x| - p) := by
  obtain ⟨h1, h2⟩ := scale_bounds hx p
  set y := |x| * 10 ^ ((p : ℤ) - Int.log 10 |x|) with hy
  have hn := abs_le.1 (R.near y)
  have l1 : (10 ^ p : ℤ) ≤ R.rnd y := by
    have : ((10 ^ p : ℤ) : ℝ) - 1 < R.rnd y := by push_cast; linarith
    have : (10 ^ p : ℤ) - 1 < R.rnd y := by exact_mod_cast this
    omega
  have l2 : R.rnd y ≤ (10 ^ (p + 1) : ℤ) := by
    have : (R.rnd y : ℝ) < ((10 ^ (p + 1) : ℤ) : ℝ) + 1 := by push_cast; linarith
    have : R.rnd y < (10 ^ (p + 1) : ℤ) + 1 := by exact_mod_cast this
    omega
  have hpos : 0 ≤ R.rnd y := le_trans (by positivity) l1
  have hnat : ((R.rnd y).toNat : ℤ) = R.rnd y := Int.toNat_of_nonneg hpos
  have hnatR : ((R.rnd y).toNat : ℝ) = (R.rnd y : ℝ) := by exact_mod_cast hnat
  have hxy : |x| = y * 10 ^ (Int.log 10 |x| - p) := by
    rw [hy, mul_assoc, ← zpow_add₀ (by norm_num)]; simp
  have herr : abs (((R.rnd y : ℤ) : ℝ) * 10 ^ (Int.log 10 |x| - p) - |x|) ≤ 1 / 2 * 10 ^ (Int.log 10 |x| - p) := by
    have hp : (0 : ℝ) < 10 ^ (Int.log 10 |x| - p) := zpow_pos (by norm_num) _
    have e : ((R.rnd y : ℤ) : ℝ) * 10 ^ (Int.log 10 |x| - p) - |x| =
        ((R.rnd y : ℝ) - y) * 10 ^ (Int.log 10 |x| - p) := by rw [sub_mul, ← hxy]
    rw [e, abs_mul, abs_of_pos hp]
    have := R.near y
    gcongr
  unfold sci
  simp only [← hy]
  by_cases h : (R.rnd y).toNat = 10 ^ (p + 1)
  · rw [if_pos h]
    refine ⟨le_refl _, Nat.pow_lt_pow_right (by norm_num) (by omega), ?_⟩
    refine le_trans (le_of_eq ?_) herr
    congr 2
    rw [← hnatR, h]
    push_cast
    rw [show Int.log 10 |x| + 1 - (p : ℤ) = (Int.log 10 |x| - p) + 1 by ring, zpow_add₀ (by norm_num)]
    ring
  · rw [if_neg h]
    dsimp only
    refine ⟨?_, ?_, by rw [hnatR]; exact herr⟩
    · have : ((10 ^ p : ℕ) : ℤ) ≤ ((R.rnd y).toNat : ℤ) := by rw [hnat]; exact_mod_cast l1
      exact_mod_cast this
    · have : ((R.rnd y).toNat : ℤ) ≤ ((10 ^ (p + 1) : ℕ) : ℤ) := by rw [hnat]; exact_mod_cast l2
      have : (R.rnd y).toNat ≤ 10 ^ (p + 1) := by exact_mod_cast this
      omega

/-- The number that is shown. -/
noncomputable def shown (R : Rounding) (p : ℕ) (x : ℝ) : ℝ :=
  if x = 0 then 0 else (if x < 0 then -1 else 1) * ((sci R p x).2 : ℝ) * 10 ^ ((sci R p x).1 - p)

theorem fmt_mantissa_eq {m p : ℕ} (h1 : 10 ^ p ≤ m) (h2 : m < 10 ^ (p + 1)) :
    ∃ d ds, fmt_mantissa m = d :: '.' :: ds ∧ d.isDigit = true ∧ (∀ c ∈ ds, c.isDigit = true) ∧ ds.length = p ∧
      Nat.ofDigitChars 10 (d :: ds) 0 = m := by
  have hl := length_toDigits h1 h2
  have hv : Nat.ofDigitChars 10 (Nat.toDigits 10 m) 0 = m := Nat.ofDigitChars_ten_toDigits
  have hd : ∀ c ∈ Nat.toDigits 10 m, c.isDigit = true := toDigits_isDigit
  unfold fmt_mantissa
  cases h : Nat.toDigits 10 m with
  | nil => rw [h] at hl; simp at hl
  | cons d ds =>
    rw [h] at hl hv hd
    exact ⟨d, ds, rfl, hd d (by simp), fun c hc => hd c (by simp [hc]), by simpa using hl, hv⟩

/-- The printed form of a number, in parts. -/
theorem fmt_eq (R : Rounding) (p : ℕ) (x : ℝ) : ∃ (neg : Bool) (d : Char) (ds : Text) (e : ℤ),
    fmt R p x = (if neg then ['-'] else []) ++ (d :: '.' :: ds) ++ 'e' :: fmt_exponent e ∧ d.isDigit = true ∧
      (∀ c ∈ ds, c.isDigit = true) ∧ ds.length = p ∧ (x ≠ 0 → e = (sci R p x).1) ∧ (x = 0 → e = 0) ∧
      (if neg then -1 else 1) * (Nat.ofDigitChars 10 (d :: ds) 0 : ℝ) * 10 ^ (e - p) = shown R p x := by
  unfold fmt shown
  by_cases hx : x = 0
  · refine ⟨false, '0', List.replicate p '0', 0, by simp [hx], by decide, ?_, by simp, by simp [hx], fun _ => rfl, ?_⟩
    · intro c hc; rw [List.eq_of_mem_replicate hc]; decide
    · rw [if_pos hx]
      simp [Nat.ofDigitChars_cons]
  · obtain ⟨h1, h2, -⟩ := sci_spec R p hx
    obtain ⟨d, ds, e1, hd, hds, hl, hv⟩ := fmt_mantissa_eq h1 h2
    refine ⟨decide (x < 0), d, ds, (sci R p x).1, ?_, hd, hds, hl, fun _ => rfl, fun h => absurd h hx, ?_⟩
    · rw [if_neg hx, e1]; simp
    · rw [if_neg hx, hv]; simp

/-- A printed number is read back as the number shown. -/
theorem atof_fmt (R : Rounding) (p : ℕ) (x : ℝ) (rest : Text) (hr : ∀ c, rest.head? = some c → c.isDigit = false) :
    atof (fmt R p x ++ rest) = shown R p x := by
  obtain ⟨neg, d, ds, e, h, hd, hds, hl, -, -, hv⟩ := fmt_eq R p x
  rw [h, atof_sci neg d ds e rest hd hds hr, ← hv, hl]

/-- The relative error of a number that is shown with `p` decimals. -/
theorem shown_error (R : Rounding) (p : ℕ) (x : ℝ) : |shown R p x - x| ≤ 1 / 2 * 10 ^ (-(p : ℤ)) * |x| := by
  unfold shown
  by_cases hx : x = 0
  · simp [hx]
  · rw [if_neg hx]
    obtain ⟨-, -, h3⟩ := sci_spec R p hx
    have hx' : 0 < |x| := abs_pos.2 hx
    have hlog : (10 : ℝ) ^ Int.log 10 |x| ≤ |x| := by
      have := Int.zpow_log_le_self (b := 10) (by norm_num) hx'
      exact_mod_cast this
    have e : abs ((if x < 0 then -1 else 1) * ((sci R p x).2 : ℝ) * 10 ^ ((sci R p x).1 - p) - x) =
        abs (((sci R p x).2 : ℝ) * 10 ^ ((sci R p x).1 - p) - |x|) := by
      by_cases h : x < 0
      · rw [if_pos h, abs_of_neg h, ← abs_neg]
        congr 1; ring
      · rw [if_neg h, abs_of_nonneg (not_lt.1 h)]
        congr 1; ring
    rw [e]
    refine h3.trans ?_
    rw [sub_eq_add_neg, zpow_add₀ (by norm_num : (10 : ℝ) ≠ 0), mul_assoc, mul_comm ((10 : ℝ) ^ Int.log 10 |x|)]
    have : (0 : ℝ) < 10 ^ (-(p : ℤ)) := zpow_pos (by norm_num) _
    gcongr

/-- Numbers with at most `p + 1` significant digits are shown exactly. -/
theorem shown_exact (R : Rounding) (p : ℕ) {x : ℝ} (m : ℕ) (e : ℤ) (h1 : 10 ^ p ≤ m) (h2 : m < 10 ^ (p + 1))
    (hx : |x| = m * 10 ^ (e - p)) : shown R p x = x := by
  have hm : (0 : ℝ) < m := by exact_mod_cast lt_of_lt_of_le (by positivity) h1
  have hp : (0 : ℝ) < 10 ^ (e - p) := zpow_pos (by norm_num) _
  have hpos : 0 < |x| := by rw [hx]; positivity
  have hx0 : x ≠ 0 := abs_pos.1 hpos
  have hlog : Int.log 10 |x| = e := by
    apply le_antisymm
    · have : |x| < ((10 : ℕ) : ℝ) ^ (e + 1) := by
        rw [hx]
        have hm2 : (m : ℝ) < 10 ^ (p + 1) := by exact_mod_cast h2
        calc (m : ℝ) * 10 ^ (e - p) < 10 ^ (p + 1) * 10 ^ (e - p) := by gcongr
          _ = ((10 : ℕ) : ℝ) ^ (e + 1) := by
            rw [← zpow_natCast, ← zpow_add₀ (by norm_num)]; push_cast; congr 1; ring
      have := (Int.lt_zpow_iff_log_lt (b := 10) (by norm_num) hpos).1 this
      omega
    · refine (Int.zpow_le_iff_le_log (b := 10) (by norm_num) hpos).1 ?_
      rw [hx]
      have hm1 : (10 : ℝ) ^ p ≤ m := by exact_mod_cast h1
      calc ((10 : ℕ) : ℝ) ^ e = 10 ^ p * 10 ^ (e - p) := by
            rw [← zpow_natCast, ← zpow_add₀ (by norm_num)]; push_cast; congr 1; ring
        _ ≤ (m : ℝ) * 10 ^ (e - p) := by gcongr
  have hy : |x| * 10 ^ ((p : ℤ) - Int.log 10 |x|) = ((m : ℤ) : ℝ) := by
    rw [hlog, hx, mul_assoc, ← zpow_add₀ (by norm_num)]; simp
  have hsci : sci R p x = (e, m) := by
    unfold sci
    dsimp only
    rw [hy, rnd_int, hlog]
    simp only [Int.toNat_natCast]
    rw [if_neg (by omega)]
  unfold shown
  rw [if_neg hx0, hsci]
  simp only
  rw [mul_assoc, ← hx]
  by_cases h : x < 0
  · rw [if_pos h, abs_of_neg h]; ring
  · rw [if_neg h, abs_of_nonneg (not_lt.1 h)]; ring

/-! ## The characters of a printed number -/

/-- Digits, sign, decimal point and exponent mark. -/
def isNumChar (c : Char) : Bool := c.isDigit || c = '.' || c = 'e' || c = '+' || c = '-'

theorem fmt_exponent_chars (e : ℤ) : ∀ c ∈ fmt_exponent e, isNumChar c = true := by
  intro c hc
  unfold fmt_exponent at hc
  rcases List.mem_cons.1 hc with rfl | hc
  · by_cases h : e < 0 <;> simp [h, isNumChar]
  · have : c = '0' ∨ c ∈ Nat.toDigits 10 e.natAbs := by
      by_cases h : e.natAbs < 10
      · rw [if_pos h] at hc; exact List.mem_cons.1 hc
      · rw [if_neg h] at hc; exact Or.inr hc
    rcases this with rfl | h
    · decide
    · simp [isNumChar, toDigits_isDigit c h]

theorem fmt_chars (R : Rounding) (p : ℕ) (x : ℝ) : ∀ c ∈ fmt R p x, isNumChar c = true := by
  obtain ⟨neg, d, ds, e, h, hd, hds, -⟩ := fmt_eq R p x
  intro c hc
  rw [h] at hc
  simp only [List.mem_append, List.mem_cons] at hc
  rcases hc with (hc | rfl | rfl | hc) | rfl | hc
  · cases neg
    · simp at hc
    · simp at hc; subst hc; decide
  · simp [isNumChar, hd]
  · decide
  · simp [isNumChar, hds c hc]
  · decide
  · exact fmt_exponent_chars e c hc

theorem fmt_ne_nil (R : Rounding) (p : ℕ) (x : ℝ) : fmt R p x ≠ [] := by
  obtain ⟨neg, d, ds, e, h, -⟩ := fmt_eq R p x
  rw [h]; simp

theorem numChar_props {c : Char} (h : isNumChar c = true) : c ≠ '\n' ∧ c ≠ '#' ∧ isDelim c = false := by
  refine ⟨?_, ?_, ?_⟩
  · rintro rfl; exact absurd h (by decide)
  · rintro rfl; exact absurd h (by decide)
  · rw [Bool.eq_false_iff]
    intro hs
    simp only [isDelim, Bool.or_eq_true, decide_eq_true_eq] at hs
    rcases hs with ((rfl | rfl) | rfl) | rfl <;> exact absurd h (by decide)

/-- The length of a printed number whose exponent has at most three digits. -/
theorem fmt_length (R : Rounding) (p : ℕ) (x : ℝ) (hlo : x ≠ 0 → (10 : ℝ) ^ (-999 : ℤ) ≤ |x|)
    (hhi : |x| < 10 ^ (999 : ℤ)) : (fmt R p x).length ≤ p + 8 := by
  obtain ⟨neg, d, ds, e, h, -, -, hl, he, he0, -⟩ := fmt_eq R p x
  have hab : e.natAbs < 10 ^ 3 := by
    by_cases hx : x = 0
    · rw [he0 hx]; norm_num
    · have hpos : 0 < |x| := abs_pos.2 hx
      have l1 : -999 ≤ Int.log 10 |x| := (Int.zpow_le_iff_le_log (b := 10) (by norm_num) hpos).1 (by exact_mod_cast hlo hx)
      have l2 : Int.log 10 |x| < 999 := (Int.lt_zpow_iff_log_lt (b := 10) (by norm_num) hpos).1 (by exact_mod_cast hhi)
      have : e = Int.log 10 |x| ∨ e = Int.log 10 |x| + 1 := by
        rw [he hx]; unfold sci
        dsimp only
        split_ifs <;> simp
      omega
  have hle : (fmt_exponent e).length ≤ 4 := by
    unfold fmt_exponent
    by_cases h10 : e.natAbs < 10
    · rw [if_pos h10, Nat.toDigits_of_lt_base h10]; simp
    · rw [if_neg h10]
      have := (Nat.length_toDigits_le_iff (b := 10) (n := e.natAbs) (k := 3) (by norm_num) (by norm_num)).2 hab
      simp; omega
  rw [h]
  cases neg <;> simp <;> omega

end Coffe
