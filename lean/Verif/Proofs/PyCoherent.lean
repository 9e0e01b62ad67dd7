import Verif.Proofs.PyRecompute2

/-! # Helper lemmas: caches that belong to the current settings -/

namespace Coffe
open Classical

/-- The caches of `s` are those of an object with parameters `p0` (and uploaded spectrum `up`): `p0`
agrees with the parameters of `s` except that the run of CLASS may have cut the k-range of `s`. -/
structure Coh (N : Num) (s : PyObj) (p0 : PyPar) (up : Option Spectrum) : Prop where
  core : s.par.core = p0.core
  bg : ∀ b, s.bg = some b → N.background s.par.bgView = some b
  ps : (s.ps = up ∧ s.par.k_min = p0.k_min ∧ s.par.k_max = p0.k_max ∧
      (up ≠ none → s.par.pk_type = .COFFE_PK_LINEAR)) ∨
    (up = none ∧ ∃ c, N.classRun p0.classView = some c ∧ s.ps = some c.spectrum ∧ s.cls = some c.cls ∧
      s.par.k_min = max p0.k_min c.k_first ∧ s.par.k_max = min p0.k_max c.k_last)
  ints : s.ints = [] ∨ (TabOk N s ∧ (s.par.contrib.divergent = true → s.par.divergent = true))
  cf : s.cf = [] ∨ (TabOk N s ∧ (s.par.contrib.divergent = true → s.par.divergent = true) ∧
    ∃ b, s.bg = some b ∧ s.cf = corrfuncRows N s b)
  mp : s.mp = [] ∨ (TabOk N s ∧ (s.par.contrib.divergent = true → s.par.divergent = true) ∧
    ∃ b, s.bg = some b ∧ s.mp = multipoleRows N s b)
  amp : s.amp = [] ∨ (TabOk N s ∧ (s.par.contrib.divergent = true → s.par.divergent = true) ∧
    ¬ s.par.z_max.length < s.par.z_min.length ∧ ∃ b, s.bg = some b ∧ s.amp = averageRows N s b)
  cov : s.cov = [] ∨ ∃ b ps, s.bg = some b ∧ s.ps = some ps ∧ s.par.covBad = none ∧
    s.cov = covRows N s.par ps b
  acov : s.acov = [] ∨
    (¬ (s.par.pk_type ≠ .COFFE_PK_LINEAR ∧ s.par.z_mean.length < s.par.z_min.length) ∧
      ∃ b ps, s.bg = some b ∧ s.ps = some ps ∧ s.par.covBad = none ∧ s.acov = acovRows N s.par ps b)

/-- Some reference parameters exist. -/
def Coherent (N : Num) (s : PyObj) : Prop := ∃ p0 up, Coh N s p0 up

theorem Coh.noBg {N : Num} {s : PyObj} {p0 : PyPar} {up : Option Spectrum} (h : Coh N s p0 up)
    (hb : s.bg = none) : s.ints = [] ∧ s.cf = [] ∧ s.mp = [] ∧ s.amp = [] ∧ s.cov = [] ∧ s.acov = [] := by
  have ht : ¬ TabOk N s := by rintro ⟨b, -, h, -⟩; rw [hb] at h; simp at h
  refine ⟨?_, ?_, ?_, ?_, ?_, ?_⟩
  · rcases h.ints with h | ⟨h, -⟩ <;> [exact h; exact absurd h ht]
  · rcases h.cf with h | ⟨h, -⟩ <;> [exact h; exact absurd h ht]
  · rcases h.mp with h | ⟨h, -⟩ <;> [exact h; exact absurd h ht]
  · rcases h.amp with h | ⟨h, -⟩ <;> [exact h; exact absurd h ht]
  · rcases h.cov with h | ⟨b, ps, h, -⟩ <;> [exact h; (rw [hb] at h; simp at h)]
  · rcases h.acov with h | ⟨-, b, ps, h, -⟩ <;> [exact h; (rw [hb] at h; simp at h)]

theorem Coh.noPs {N : Num} {s : PyObj} {p0 : PyPar} {up : Option Spectrum} (h : Coh N s p0 up)
    (hb : s.ps = none) : s.ints = [] ∧ s.cf = [] ∧ s.mp = [] ∧ s.amp = [] ∧ s.cov = [] ∧ s.acov = [] := by
  have ht : ¬ TabOk N s := by rintro ⟨b, ps, -, h, -⟩; rw [hb] at h; simp at h
  refine ⟨?_, ?_, ?_, ?_, ?_, ?_⟩
  · rcases h.ints with h | ⟨h, -⟩ <;> [exact h; exact absurd h ht]
  · rcases h.cf with h | ⟨h, -⟩ <;> [exact h; exact absurd h ht]
  · rcases h.mp with h | ⟨h, -⟩ <;> [exact h; exact absurd h ht]
  · rcases h.amp with h | ⟨h, -⟩ <;> [exact h; exact absurd h ht]
  · rcases h.cov with h | ⟨b, ps, -, h, -⟩ <;> [exact h; (rw [hb] at h; simp at h)]
  · rcases h.acov with h | ⟨-, b, ps, -, h, -⟩ <;> [exact h; (rw [hb] at h; simp at h)]

/-- Nothing cached except a background that belongs to the parameters. -/
theorem coh_onlyBg {N : Num} {s : PyObj} (hb : ∀ b, s.bg = some b → N.background s.par.bgView = some b)
    (h : s.OnlyBg) : Coh N s s.par none where
  core := rfl
  bg := hb
  ps := Or.inl ⟨h.ps, rfl, rfl, fun h => absurd rfl h⟩
  ints := Or.inl h.ints
  cf := Or.inl h.cf
  mp := Or.inl h.mp
  amp := Or.inl h.amp
  cov := Or.inl h.cov
  acov := Or.inl h.acov

theorem coh_freeAll {N : Num} (s : PyObj) : Coherent N s.freeAll :=
  ⟨_, none, coh_onlyBg (by simp [PyObj.freeAll, PyObj.freeBg, PyObj.freePs, PyObj.freeInts, PyObj.freeCf,
    PyObj.freeMp, PyObj.freeAmp, PyObj.freeCov, PyObj.freeAcov]) ⟨rfl, rfl, rfl, rfl, rfl, rfl, rfl⟩⟩

theorem coh_fresh {N : Num} (p : PyPar) : Coh N (fresh p) p none :=
  coh_onlyBg (by simp [fresh]) ⟨rfl, rfl, rfl, rfl, rfl, rfl, rfl⟩

/-! ## Invariance of the rows and tables under assignments that do not touch their inputs -/

theorem tabOk_upd {N : Num} {s s' : PyObj} (hb : s'.bg = s.bg) (hp : s'.ps = s.ps) (hc : s'.cls = s.cls)
    (hi : s'.ints = s.ints) (hk : s'.par.pk_type = s.par.pk_type) (ho : s'.par.RenormOob → s.par.RenormOob)
    (hn : ∀ ps b, integrals_init (intNum N s'.par ps s.cls b) (s'.par.toPar N) s'.par.l =
      integrals_init (intNum N s.par ps s.cls b) (s.par.toPar N) s.par.l)
    (h : TabOk N s) : TabOk N s' := by
  obtain ⟨b, ps, h1, h2, h3, h4⟩ := h
  refine ⟨b, ps, by rw [hb, h1], by rw [hp, h2], ⟨by rw [hk, hc]; exact h3.1, fun h => h3.2 (ho h)⟩, ?_⟩
  rw [hi, hc, hn, h4]

/-- Table without the divergent entry: the numerical content of that entry is irrelevant. -/
theorem integrals_init_noDiv (num num' : Key → Integral) (par : Par) (ls : List ℕ)
    (hd : par.divergent = false) (hn : ∀ k, k ≠ ⟨4, 0, .int, .int⟩ → num k = num' k) :
    integrals_init num par ls = integrals_init num' par ls := by
  have hp : ∀ k, k ≠ ⟨4, 0, .int, .int⟩ → plainEntry num par k = plainEntry num' par k := by
    intro k hk; simp [plainEntry, hn k hk]
  unfold integrals_init
  have h1 : baseKeys.map (plainEntry num par) = baseKeys.map (plainEntry num' par) := by
    refine List.map_congr_left fun k hk => hp k ?_
    rintro rfl
    simp [baseKeys] at hk
  have h2 : ls.map (fun l : ℕ => plainEntry num par ⟨1, l, .int, .int⟩) =
      ls.map (fun l : ℕ => plainEntry num' par ⟨1, l, .int, .int⟩) :=
    List.map_congr_left fun l _ => hp _ (by simp)
  have h3 : ls.flatMap (fun l : ℕ => (List.range (l / 2 + 1)).map
        (fun k => plainEntry num par (den_len_entry_key l k))) =
      ls.flatMap (fun l : ℕ => (List.range (l / 2 + 1)).map
        (fun k => plainEntry num' par (den_len_entry_key l k))) := by
    congr 1
    funext l
    exact List.map_congr_left fun k _ => hp _ (by simp [den_len_entry_key])
  rw [h1, h2, h3, hp ⟨1, -1, .half, .half⟩ (by simp), hd]
  simp

/-- Table without flat-sky entries: the multipole list is irrelevant. -/
theorem integrals_init_noFlat (num : Key → Integral) (par : Par) (ls ls' : List ℕ)
    (h1 : par.flatsky_local_nonlocal = false) (h2 : par.flatsky_nonlocal = false) :
    integrals_init num par ls = integrals_init num par ls' := by
  simp [integrals_init, h1, h2]

/-- A method whose final state keeps the predicate, however it ends. -/
def Post {α : Type} (P : PyObj → Prop) (m : Py α) (s : PyObj) : Prop := P (m s).2

/-- A method that never changes the object. -/
def Still {α : Type} (m : Py α) : Prop := ∀ s, (m s).2 = s

theorem Post.bind_still {α β : Type} {P : PyObj → Prop} {m : Py α} {f : α → Py β} {s : PyObj}
    (hm : Still m) (h0 : P s) (h : ∀ a, Post P (f a) s) : Post P (m >>= f) s := by
  unfold Post
  rw [Py.bind_eq]
  rcases hms : m s with ⟨o, s'⟩
  have : s' = s := by have := hm s; rw [hms] at this; exact this
  subst this
  cases o with
  | error e => exact h0
  | ok a => exact h a

theorem still_pure {α : Type} (a : α) : Still (pure a : Py α) := fun _ => rfl
theorem still_raise {α : Type} (e : Err) : Still (Py.raise e : Py α) := fun _ => rfl
theorem still_get : Still Py.get := fun _ => rfl

theorem still_checkParameter (v : PyVal) (k : Kind) (a b : ℝ) : Still (checkParameter v k a b) := by
  unfold checkParameter
  cases v.asKind k with
  | none => exact still_raise _
  | some x =>
    dsimp only
    split_ifs
    · exact still_raise _
    · exact still_raise _
    · exact still_pure _

theorem still_checkInt (v : PyVal) (a b : ℤ) : Still (checkInt v a b) := by
  unfold checkInt
  intro s
  split
  · split_ifs <;> rfl
  · split_ifs <;> rfl
  · rfl

theorem still_toDouble (v : PyVal) : Still (toDouble v) := by
  unfold toDouble
  intro s
  split <;> rfl

theorem still_toInt (v : PyVal) : Still (toInt v) := by
  unfold toInt
  intro s
  split <;> rfl

theorem still_checkOmegas (x : ℝ) : Still (checkOmegas x) := by
  unfold checkOmegas
  intro s
  split_ifs <;> rfl

theorem still_checkFloats (v : PyVal) (ok : ℝ → Prop) : Still (checkFloats v ok) := by
  unfold checkFloats
  intro s
  split
  · split_ifs <;> rfl
  · split_ifs <;> rfl
  · rfl
  · rfl

theorem still_checkMultipoles (v : PyVal) : Still (checkMultipoles v) := by
  unfold checkMultipoles
  intro s
  split
  · split_ifs <;> rfl
  · rfl
  · rfl

theorem still_checkPopulations (v : PyVal) : Still (checkPopulations v) := by
  unfold checkPopulations
  intro s
  split
  · split_ifs <;> rfl
  · rfl
  · split_ifs <;> rfl
  · rfl
  · rfl
  · rfl

theorem still_checkDiscrete {α : Type} (v : PyVal) (f : ℤ → Option α) (g : String → Option α) :
    Still (checkDiscrete v f g) := by
  unfold checkDiscrete
  intro s
  split
  · cases f _ <;> rfl
  · cases f _ <;> rfl
  · cases g _ <;> rfl
  · split
    · cases f _ <;> rfl
    · rfl
  · rfl

theorem still_checkReal (x a b : ℝ) : Still (checkReal x a b) := by
  unfold checkReal
  intro s
  split_ifs <;> rfl

theorem Post.guarded {P : PyObj → Prop} {v : PyVal} {k : Kind} {a b : ℝ} {old : PyPar → ℝ}
    {act : ℝ → Py Unit} {s : PyObj} (h0 : P s) (h : ∀ x, Post P (act x) s) :
    Post P (guarded v k a b old act) s := by
  unfold Coffe.guarded
  refine Post.bind_still (still_checkParameter _ _ _ _) h0 fun x => ?_
  refine Post.bind_still still_get h0 fun s' => ?_
  split_ifs
  · exact h0
  · exact h x

end Coffe
