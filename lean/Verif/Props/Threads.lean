import Verif.Props.Main
import Verif.Proofs.TextNum

/-!
# C40: the number of threads on the command line
-/

namespace Coffe

theorem digits_of_all {l : Text} (h : ∀ c ∈ l, c.isDigit = true) : (digits l).1 = l := by
  unfold digits
  exact List.takeWhile_eq_self_iff.2 h

theorem atoi_int_text (n : ℕ) : atoi (int_text n) = n ∧ atoi ('-' :: int_text n) = -n := by
  have hd : ∀ c ∈ int_text n, c.isDigit = true := toDigits_isDigit
  have hv : Nat.ofDigitChars 10 (int_text n) 0 = n := Nat.ofDigitChars_ten_toDigits
  have hm : atoi ('-' :: int_text n) = -1 * (Nat.ofDigitChars 10 (digits (int_text n)).1 0 : ℤ) := rfl
  constructor
  · have hs : (int_text n).dropWhile isSpace = int_text n := by
      cases h : int_text n with
      | nil => rfl
      | cons c l => exact List.dropWhile_cons_of_neg (by simp [not_space_digit (hd c (by rw [h]; exact List.mem_cons_self))])
    have hg : sign_of (int_text n) = (1, int_text n) := by
      cases h : int_text n with
      | nil => rfl
      | cons c l =>
        have hc := hd c (by rw [h]; exact List.mem_cons_self)
        unfold sign_of
        split
        · next e => cases e; exact absurd hc (by decide)
        · next e => cases e; exact absurd hc (by decide)
        · rfl
    unfold atoi
    rw [hs, hg]
    dsimp only
    rw [digits_of_all hd, hv, one_mul]
  · rw [hm, digits_of_all hd, hv]
    ring

theorem scan_last (opts : List Opt) (s n : Option Text) (hr : ∀ o ∈ opts, o ≠ .h ∧ o ≠ .v ∧ o ≠ .C) :
    scan_options opts s n = some ((opts.filterMap Opt.file).getLast?.or s, (opts.filterMap Opt.threads).getLast?.or n) := by
  induction opts generalizing s n with
  | nil => rfl
  | cons o l ih =>
    have hl := fun x hx => hr x (List.mem_cons_of_mem _ hx)
    have ho := hr o List.mem_cons_self
    cases o with
    | h => exact absurd rfl ho.1
    | v => exact absurd rfl ho.2.1
    | C => exact absurd rfl ho.2.2
    | other => exact ih s n hl
    | s a =>
      refine (ih (some a) n hl).trans ?_
      simp only [List.filterMap_cons, Opt.file, Opt.threads, List.getLast?_cons]
      cases (l.filterMap Opt.file).getLast? <;> rfl
    | n a =>
      refine (ih s (some a) hl).trans ?_
      simp only [List.filterMap_cons, Opt.file, Opt.threads, List.getLast?_cons]
      cases (l.filterMap Opt.threads).getLast? <;> rfl

/-- **C40**: a number of threads in decimal, given by the last `-n`, is used as it is: with one thread or more the run is the
one that the settings file asks for, with none, or with a negative number, the program fails before it reads anything. -/
theorem C40_threads {I : Type} (L : Lib I) (opts : List Opt) (settings : Text) (hr : ∀ o ∈ opts, o ≠ .h ∧ o ≠ .v ∧ o ≠ .C)
    (hf : (opts.filterMap Opt.file).getLast? = some settings) (hs : settings.length < COFFE_MAX_STRLEN) (n : ℕ) :
    ((opts.filterMap Opt.threads).getLast? = some (int_text n) → (Asks L opts settings ↔ 1 ≤ n)) ∧
    ((opts.filterMap Opt.threads).getLast? = some (int_text n) → n = 0 → main L opts = Prog.lift (.error .exit)) ∧
    ((opts.filterMap Opt.threads).getLast? = some ('-' :: int_text n) → main L opts = Prog.lift (.error .exit)) := by
  have hm : ∀ t, (opts.filterMap Opt.threads).getLast? = some t → atoi t ≤ 0 → main L opts = Prog.lift (.error .exit) := by
    intro t ht h0
    unfold main
    rw [scan_last opts none none hr, hf, ht]
    funext w
    show ((Prog.lift (settings_name settings)) >>= _) w = _
    rw [Prog.bind_ok (Prog.lift_ok (show settings_name settings = .ok settings from if_pos hs) w)]
    show (if atoi t ≤ 0 then Prog.lift (.error .exit) else main_sequence L settings) w = _
    rw [if_pos h0]
  refine ⟨fun ht => ⟨fun h => ?_, fun h => ⟨hr, hf, hs, ?_⟩⟩, fun ht h0 => hm _ ht (by rw [(atoi_int_text n).1, h0]; rfl),
    fun ht => hm _ ht (by rw [(atoi_int_text n).2]; omega)⟩
  · have := h.threads
    rw [ht] at this
    have h2 : 0 < atoi (int_text n) := this
    rw [(atoi_int_text n).1] at h2
    omega
  · rw [ht]
    show 0 < atoi (int_text n)
    rw [(atoi_int_text n).1]
    omega

/-- Non-vacuity of `C40_threads`: twelve threads, and none. -/
example (c : Conf) : Asks (wLib c) [.s ['s'], .n ['1', '2']] ['s'] ∧
    main (wLib c) [.s ['s'], .n ['0']] = Prog.lift (.error .exit) :=
  ⟨((C40_threads (wLib c) [.s ['s'], .n ['1', '2']] ['s'] (by simp) rfl (by decide) 12).1 (by decide)).2 (by norm_num),
    (C40_threads (wLib c) [.s ['s'], .n ['0']] ['s'] (by simp) rfl (by decide) 0).2.1 (by decide) rfl⟩

end Coffe
