import Verif.Proofs.PyMoves
import Verif.Proofs.PyEval
import Verif.Props.PyFileOptions
import Verif.Props.TextWrite
import Verif.Spec.CommandLine

/-! # Helper lemmas: the command line of the Python package -/

namespace Coffe
open Classical

/-! ## Tables -/

theorem join_eq (sep : Text) : ∀ l : List Text, join sep l = sep.intercalate l
  | [] => rfl
  | [x] => by simp [join, List.intercalate]
  | x :: y :: l => by
    rw [join, join_eq sep (y :: l)]
    simp [List.intercalate]

theorem split_join (l : List Text) (h : ∀ t ∈ l, '\t' ∉ t) (hl : l ≠ []) : (join ['\t'] l).splitOn '\t' = l := by
  rw [join_eq]
  exact List.splitOn_intercalate '\t' h hl

theorem mem_join {c : Char} {l : List Text} (h : c ∈ join ['\t'] l) : c = '\t' ∨ ∃ t ∈ l, c ∈ t := by
  induction l using join.induct with
  | case1 => simp [join] at h
  | case2 x => exact .inr ⟨x, by simp, by simpa [join] using h⟩
  | case3 x y l ih =>
    rw [join] at h
    simp only [List.mem_append, List.mem_singleton] at h
    rcases h with (h | h) | h
    · exact .inr ⟨x, by simp, h⟩
    · exact .inl h
    · rcases ih h with h | ⟨t, ht, h⟩
      · exact .inl h
      · exact .inr ⟨t, by simp [ht], h⟩

/-- The characters of a number. -/
def Plain (t : Text) : Prop := '\t' ∉ t ∧ '\n' ∉ t

theorem plain_fmt (R : Rounding) (x : ℝ) : Plain (fmt R 10 x) := by
  have h : ∀ c ∈ fmt R 10 x, c ≠ '\t' ∧ c ≠ '\n' := fun c hc => by
    obtain ⟨h1, -, h3⟩ := numChar_props (fmt_chars R 10 x c hc)
    refine ⟨?_, h1⟩
    rintro rfl
    exact absurd h3 (by decide)
  exact ⟨fun hc => (h _ hc).1 rfl, fun hc => (h _ hc).2 rfl⟩

theorem fmt_d_nat (n : ℕ) : fmt_d n = Nat.toDigits 10 n := by
  unfold fmt_d int_text
  rw [if_neg (by rintro ⟨h, -⟩; exact absurd h (not_lt.2 (Nat.cast_nonneg n))), Nat.abs_cast, Nat.floor_natCast]

theorem plain_digits (n : ℕ) : Plain (Nat.toDigits 10 n) :=
  ⟨fun h => absurd (toDigits_isDigit _ h) (by decide), fun h => absurd (toDigits_isDigit _ h) (by decide)⟩

theorem shown_real (R : Rounding) (x : ℝ) : (Cell.real x).Shown (fmt R 10 x) := by
  have h := atof_fmt R 10 x [] (by simp)
  rw [List.append_nil] at h
  unfold Cell.Shown
  dsimp only
  rw [h]
  exact shown_error R 10 x

/-- The number of a cell. -/
def Cell.number : Cell → ℝ
  | .real x => x
  | .whole n => n

/-- The conversion that suits a cell. -/
def Cell.conversion : Cell → Conversion
  | .real _ => .e10
  | .whole _ => .d

theorem cell_text (R : Rounding) (c : Cell) : c.Shown (c.conversion.text R c.number) ∧ Plain (c.conversion.text R c.number) := by
  cases c with
  | real x => exact ⟨shown_real R x, plain_fmt R x⟩
  | whole n =>
    unfold Cell.conversion Cell.number Conversion.text
    dsimp only
    rw [fmt_d_nat]
    exact ⟨rfl, plain_digits n⟩

/-- The text of the cells of a line. -/
theorem zip_cells (R : Rounding) (l : List Cell) :
    List.zipWith (Conversion.text R) (l.map Cell.conversion) (l.map Cell.number) =
      l.map fun c => c.conversion.text R c.number := by
  induction l with
  | nil => rfl
  | cons c l ih => simp [ih]

/-- What is written is a table. -/
theorem isTable_of (R : Rounding) (names : List String) (cs : List Conversion) (records : List (List (String × Cell)))
    (h1 : names ≠ []) (h2 : ∀ n ∈ names, Plain n.toList)
    (h3 : ∀ r ∈ records, r.map Prod.fst = names ∧ (r.map Prod.snd).map Cell.conversion = cs) :
    IsTable ("# ".toList ++ join ['\t'] (names.map String.toList) ++ ['\n'] ++
      (records.map fun r => (r.map Prod.snd).map Cell.number).flatMap fun row =>
        join ['\t'] (List.zipWith (Conversion.text R) cs row) ++ ['\n']) names records := by
  refine ⟨join ['\t'] (names.map String.toList), records.map fun r =>
    join ['\t'] ((r.map Prod.snd).map fun c => c.conversion.text R c.number), ?_, ?_, ?_, ?_⟩
  · rw [ofLines_cons]
    have : ∀ rs : List (List (String × Cell)), (∀ r ∈ rs, (r.map Prod.snd).map Cell.conversion = cs) →
        ((rs.map fun r => (r.map Prod.snd).map Cell.number).flatMap fun row =>
          join ['\t'] (List.zipWith (Conversion.text R) cs row) ++ ['\n']) =
        ofLines (rs.map fun r => join ['\t'] ((r.map Prod.snd).map fun c => c.conversion.text R c.number)) := by
      intro rs
      induction rs with
      | nil => intro _; rfl
      | cons r rs ih =>
        intro h
        rw [List.map_cons, List.map_cons, List.flatMap_cons, ofLines_cons, ih fun r hr => h r (by simp [hr]),
          ← h r (by simp), zip_cells]
        simp
    rw [this records fun r hr => (h3 r hr).2]
    simp
  · intro h
    rcases mem_join h with h | ⟨t, ht, h⟩
    · exact absurd h (by decide)
    · obtain ⟨n, hn, rfl⟩ := List.mem_map.1 ht
      exact (h2 n hn).2 h
  · refine split_join _ (fun t ht => ?_) (by simpa using h1)
    obtain ⟨n, hn, rfl⟩ := List.mem_map.1 ht
    exact (h2 n hn).1
  · rw [List.forall₂_map_right_iff, List.forall₂_same]
    intro r hr
    have hne : r.map Prod.snd ≠ [] := by
      intro h
      have : r = [] := by simpa using h
      subst this
      exact h1 (by simpa using ((h3 _ hr).1).symm)
    refine ⟨fun h => ?_, (h3 r hr).1, ?_⟩
    · rcases mem_join h with h | ⟨t, ht, h⟩
      · exact absurd h (by decide)
      · obtain ⟨c, hc, rfl⟩ := List.mem_map.1 ht
        exact (cell_text R c).2.2 h
    · rw [split_join _ (fun t ht => ?_) (by simpa using hne), List.forall₂_map_right_iff, List.forall₂_same]
      · exact fun c _ => (cell_text R c).1
      · obtain ⟨c, hc, rfl⟩ := List.mem_map.1 ht
        exact (cell_text R c).2.1

/-! ## Results of the calculations -/

/-- None of the lists of coordinates is empty. -/
structure Listed (s : PyObj) : Prop where
  sep : s.par.sep ≠ []
  mu : s.par.mu ≠ []
  l : s.par.l ≠ []
  z_mean : s.par.z_mean ≠ []
  z_min : s.par.z_min ≠ []
  z_max : s.par.z_max ≠ []

/-- `Listed` is kept. -/
def KeepsListed (s t : PyObj) : Prop := Listed s → Listed t

theorem listed_stable (re : Bool) : Stable KeepsListed re where
  refl _ h := h
  trans h h' g := h' (h g)
  div _ _ h := ⟨h.1, h.2, h.3, h.4, h.5, h.6⟩
  bg _ _ h := ⟨h.1, h.2, h.3, h.4, h.5, h.6⟩
  ps _ _ _ h := ⟨h.1, h.2, h.3, h.4, h.5, h.6⟩
  ints _ _ h := ⟨h.1, h.2, h.3, h.4, h.5, h.6⟩
  cf _ _ h := ⟨h.1, h.2, h.3, h.4, h.5, h.6⟩
  mp _ _ h := ⟨h.1, h.2, h.3, h.4, h.5, h.6⟩
  amp _ _ h := ⟨h.1, h.2, h.3, h.4, h.5, h.6⟩
  covs _ _ _ h := ⟨h.1, h.2, h.3, h.4, h.5, h.6⟩

/-- From an object with coordinates, the method returns something with the property. -/
def Returns {α : Type} (m : Py α) (P : α → Prop) : Prop := ∀ s, Listed s → ∀ a t, m s = (.ok a, t) → P a

theorem Returns.bind {α β : Type} {m : Py α} {g : α → Py β} {P : β → Prop} (hm : Moves KeepsListed m)
    (hg : ∀ a, Returns (g a) P) : Returns (m >>= g) P := by
  intro s hs b t h
  obtain ⟨a, s1, h1, h2⟩ := Py.bind_done h
  have := hm s hs
  rw [h1] at this
  exact hg a s1 this b t h2

theorem Returns.raise {α β : Type} (e : Err) (g : α → Py β) (P : β → Prop) : Returns (Py.raise e >>= g) P := by
  intro s _ b t h
  rw [Py.bind_eq, Py.raise_eq] at h
  exact absurd (congrArg Prod.fst h) (by simp)

/-- The last step: the result is calculated unless there is one. -/
theorem Returns.last {α : Type} {f : PyObj → List α} {i : Py Unit} {out : List α → Out}
    (h : ∀ s, Listed s → ∀ t, i s = (.ok (), t) → f t ≠ []) :
    Returns (do Coffe.ensure (fun s => f s = []) false i; let s ← Py.get; pure (out (f s))) fun o =>
      ∃ l, o = out l ∧ l ≠ [] := by
  intro s hs o t ht
  obtain ⟨_, s1, h1, h2⟩ := Py.bind_done ht
  rw [ensure_eq] at h1
  have h3 : f s1 ≠ [] := by
    by_cases hc : f s = []
    · rw [if_pos (.inl hc)] at h1
      exact h s hs s1 h1
    · rw [if_neg (by simpa using hc)] at h1
      have : s = s1 := congrArg Prod.snd h1
      rwa [← this]
  have h4 : out (f s1) = o := by
    have := congrArg Prod.fst h2
    simpa [Py.bind_eq, Py.get_eq, Py.pure_eq] using this
  exact ⟨f s1, h4.symm, h3⟩

theorem flatMap_ne_nil {α β : Type} {l : List α} {f : α → List β} (hl : l ≠ []) (hf : ∀ a, f a ≠ []) : l.flatMap f ≠ [] := by
  cases l with
  | nil => exact absurd rfl hl
  | cons a l => simp [hf a]

theorem map_ne_nil {α β : Type} {l : List α} {f : α → β} (hl : l ≠ []) : l.map f ≠ [] := by simpa using hl

theorem zip_ne_nil {α β : Type} {l : List α} {l' : List β} (h : l ≠ []) (h' : l' ≠ []) : l.zip l' ≠ [] := by
  cases l <;> cases l' <;> simp_all

/-- The constructor that belongs to a calculation. -/
def Bulk.Returned : Bulk → Out → Prop
  | .corrfunc, o => ∃ l, o = .corrfunc l ∧ l ≠ []
  | .multipoles, o => ∃ l, o = .multipoles l ∧ l ≠ []
  | .average, o => ∃ l, o = .average l ∧ l ≠ []
  | .covariance, o => ∃ l, o = .covariance l ∧ l ≠ []
  | .averageCovariance, o => ∃ l, o = .averageCovariance l ∧ l ≠ []

theorem bulk_returns (N : Num) (b : Bulk) : Returns (computeBulk N false b) b.Returned := by
  have H := listed_stable false
  have hst : ∀ {m : Py Out} {P : Out → Prop}, Returns m P →
      Returns (do checkContributions; ensureBg N false; ensurePs N false; ensureInts N false; m) P := fun h =>
    Returns.bind H.checkContributions fun _ => Returns.bind H.ensureBg fun _ => Returns.bind H.ensurePs fun _ =>
      Returns.bind H.ensureInts fun _ => h
  cases b <;> unfold computeBulk <;> dsimp only
  case corrfunc =>
    unfold computeCorrfuncBulk
    refine Returns.bind (H.still still_coordsC) fun _ => hst (Returns.last (f := PyObj.cf) (out := Out.corrfunc) ?_)
    intro s hs t h
    unfold corrfuncInit at h
    split at h
    · rw [← show _ = t from congrArg Prod.snd h]
      exact flatMap_ne_nil hs.z_mean fun _ => flatMap_ne_nil hs.mu fun _ => map_ne_nil hs.sep
    · cases congrArg Prod.fst h
  case multipoles =>
    unfold computeMultipolesBulk
    refine Returns.bind (H.still still_coordsM) fun _ => hst (Returns.last (f := PyObj.mp) (out := Out.multipoles) ?_)
    intro s hs t h
    unfold multipolesInit at h
    split at h
    · rw [← show _ = t from congrArg Prod.snd h]
      exact flatMap_ne_nil hs.z_mean fun _ => flatMap_ne_nil hs.l fun _ => map_ne_nil hs.sep
    · cases congrArg Prod.fst h
  case average =>
    unfold computeAverageBulk
    refine Returns.bind (H.still still_coordsA) fun _ => hst (Returns.last (f := PyObj.amp) (out := Out.average) ?_)
    intro s hs t h
    unfold averageInit at h
    split at h
    · split_ifs at h
      · cases congrArg Prod.fst h
      · rw [← show _ = t from congrArg Prod.snd h]
        exact flatMap_ne_nil (zip_ne_nil hs.z_min hs.z_max) fun _ => flatMap_ne_nil hs.l fun _ => map_ne_nil hs.sep
    · cases congrArg Prod.fst h
  case covariance =>
    have hl : Returns (do Coffe.ensure (fun s => s.cov = []) false (covInit N); let s ← Py.get; pure (Out.covariance s.cov))
        (Bulk.Returned .covariance) := by
      refine Returns.last (f := PyObj.cov) (out := Out.covariance) ?_
      intro s hs t h
      unfold covInit at h
      split at h
      · split at h
        · cases congrArg Prod.fst h
        · rw [← show _ = t from congrArg Prod.snd h]
          exact flatMap_ne_nil hs.z_mean fun _ => flatMap_ne_nil hs.l fun _ => flatMap_ne_nil hs.sep fun _ =>
            flatMap_ne_nil hs.l fun _ => map_ne_nil hs.sep
      · cases congrArg Prod.fst h
    unfold computeCovarianceBulk
    refine Returns.bind (H.still still_coordsM) fun _ => Returns.bind H.checkContributions fun _ =>
      Returns.bind (H.still still_get) fun s => ?_
    dsimp only
    split_ifs
    · exact Returns.bind H.ensurePs fun _ => Returns.bind H.ensureBg fun _ => Returns.bind (H.still still_get) fun _ =>
        Returns.bind (H.checkBins _) fun _ => hl
    · exact Returns.raise _ _ _
  case averageCovariance =>
    have hl : Returns (do Coffe.ensure (fun s => s.acov = []) false (acovInit N); let s ← Py.get; pure (Out.averageCovariance s.acov))
        (Bulk.Returned .averageCovariance) := by
      refine Returns.last (f := PyObj.acov) (out := Out.averageCovariance) ?_
      intro s hs t h
      unfold acovInit at h
      split at h
      · split_ifs at h
        · cases congrArg Prod.fst h
        · split at h
          · cases congrArg Prod.fst h
          · rw [← show _ = t from congrArg Prod.snd h]
            exact flatMap_ne_nil (zip_ne_nil hs.z_min hs.z_max) fun _ => flatMap_ne_nil hs.l fun _ =>
              flatMap_ne_nil hs.sep fun _ => flatMap_ne_nil hs.l fun _ => map_ne_nil hs.sep
      · cases congrArg Prod.fst h
    unfold computeAverageCovarianceBulk
    refine Returns.bind (H.still still_coordsM) fun _ => Returns.bind H.checkContributions fun _ =>
      Returns.bind (H.still still_get) fun s => ?_
    dsimp only
    split_ifs
    · exact Returns.bind H.ensurePs fun _ => Returns.bind H.ensureBg fun _ => Returns.bind (H.still still_get) fun _ =>
        Returns.bind (H.checkBins _) fun _ => hl
    · exact Returns.raise _ _ _

/-! ## The object loaded from a file -/

theorem spelled_ne {x : Txt} {v : PyVal} (h : x.Spells v) : v ≠ .floats [] ∧ v ≠ .ints [] := by
  cases x <;> unfold Txt.Spells at h <;> dsimp only at h
  case int n => rcases h with rfl | rfl | rfl | rfl <;> simp
  case float y => rcases h with rfl | rfl <;> simp
  case ints l => obtain ⟨hl, rfl | rfl⟩ := h <;> simp [hl]
  case floats l => obtain ⟨hl, rfl⟩ := h; simp [hl]
  case str y => subst h; simp

theorem gives_ne {c : Config} {n : Name} {v : PyVal} {x : Option Txt} (h : c.Gives n v x)
    (hn : (∃ ok, n.doc = .reals ok) ∨ n.doc = .multipoles) (he : n.effect = none)
    (hd : getattr PyPar.default n ≠ .floats [] ∧ getattr PyPar.default n ≠ .ints []) : v ≠ .floats [] ∧ v ≠ .ints [] := by
  cases x with
  | none =>
    unfold Config.Gives at h
    dsimp only at h
    rw [if_neg (by rintro ⟨l, e, -, h, -⟩; rw [he] at h; cases h)] at h
    rw [h]
    exact hd
  | some x =>
    obtain ⟨w, ⟨h1, -⟩, h2⟩ := h
    have h3 := spelled_ne h1
    rcases hn with ⟨ok, hn⟩ | hn <;> rw [hn] at h2 <;> unfold Doc.Accepted at h2 <;> dsimp only at h2
    · obtain ⟨l, hl, -, rfl⟩ := h2
      rcases hl with rfl | ⟨ns, rfl, rfl⟩
      · exact ⟨h3.1, by simp⟩
      · refine ⟨?_, by simp⟩
        have := h3.2
        simpa using this
    · obtain ⟨l, hl, -, rfl⟩ := h2
      rcases hl with rfl | ⟨rfl, -⟩
      · exact ⟨by simp, h3.2⟩
      · exact absurd rfl h3.1

theorem loaded_listed {o : SetOrder} (ho : o.Valid) {c : Config} {s : PyObj} (h : fromFile o c = .ok s) : Listed s := by
  have key : ∀ n : Name, ¬ n.Ignored → (∀ v, n.Whole v) → (∃ ok, n.doc = .reals ok) ∨ n.doc = .multipoles →
      n.effect = none → (getattr PyPar.default n ≠ .floats [] ∧ getattr PyPar.default n ≠ .ints []) →
      getattr s.par n ≠ .floats [] ∧ getattr s.par n ≠ .ints [] := fun n h1 h2 h3 h4 h5 =>
    gives_ne (C67_partial o ho c s h n h1 fun _ v _ _ => h2 v) h3 h4 h5
  have hl := default_loadable.lists
  have hw : ∀ n : Name, n ≠ .l_max_g → n ≠ .l_max_ur → ∀ v, n.Whole v := fun n h1 h2 v h => by
    rcases h with h | h
    · exact absurd h h1
    · exact absurd h h2
  have k1 := key .sep (by simp [Name.Ignored]) (hw _ (by simp) (by simp)) (.inl ⟨_, rfl⟩) rfl
    ⟨fun e => hl.1 (PyVal.floats.inj e), fun e => nomatch e⟩
  have k2 := key .mu (by simp [Name.Ignored]) (hw _ (by simp) (by simp)) (.inl ⟨_, rfl⟩) rfl
    ⟨fun e => hl.2.1 (PyVal.floats.inj e), fun e => nomatch e⟩
  have k3 := key .l (by simp [Name.Ignored]) (hw _ (by simp) (by simp)) (.inr rfl) rfl
    ⟨(fun e => nomatch e), by simp [getattr, PyPar.default]⟩
  have k4 := key .z_mean (by simp [Name.Ignored]) (hw _ (by simp) (by simp)) (.inl ⟨_, rfl⟩) rfl
    ⟨fun e => hl.2.2.2.1 (PyVal.floats.inj e), fun e => nomatch e⟩
  have k5 := key .z_min (by simp [Name.Ignored]) (hw _ (by simp) (by simp)) (.inl ⟨_, rfl⟩) rfl
    ⟨fun e => hl.2.2.2.2.1 (PyVal.floats.inj e), fun e => nomatch e⟩
  have k6 := key .z_max (by simp [Name.Ignored]) (hw _ (by simp) (by simp)) (.inl ⟨_, rfl⟩) rfl
    ⟨fun e => hl.2.2.2.2.2.1 (PyVal.floats.inj e), fun e => nomatch e⟩
  exact ⟨fun e => k1.1 (congrArg PyVal.floats e), fun e => k2.1 (congrArg PyVal.floats e),
    fun e => k3.2 (by simp [getattr, e]), fun e => k4.1 (congrArg PyVal.floats e),
    fun e => k5.1 (congrArg PyVal.floats e), fun e => k6.1 (congrArg PyVal.floats e)⟩

/-! ## The background -/

theorem linspace_bounds (n : ℕ) : ∀ z ∈ linspace 0 15 n, 0 ≤ z ∧ z ≤ 15 := by
  intro z hz
  obtain ⟨i, hi, rfl⟩ := List.mem_map.1 hz
  rw [List.mem_range] at hi
  rcases Nat.lt_or_ge 1 n with hn | hn
  · have h1 : (0 : ℝ) < n - 1 := by
      have : (1 : ℝ) < n := by exact_mod_cast hn
      linarith
    have h2 : (i : ℝ) ≤ n - 1 := by
      have : (i : ℝ) + 1 ≤ n := by exact_mod_cast hi
      linarith
    have h3 : (i : ℝ) / (n - 1) ≤ 1 := (div_le_one h1).2 h2
    have h4 : 0 ≤ (i : ℝ) / (n - 1) := div_nonneg (Nat.cast_nonneg i) h1.le
    have h5 : 0 + (i : ℝ) * ((15 - 0) / (n - 1)) = 15 * (i / (n - 1)) := by ring
    rw [h5]
    constructor <;> linarith
  · obtain rfl : i = 0 := by omega
    simp

theorem backgroundAt_ok {N : Num} {s : PyObj} {b : Bg} (hb : s.bg = some b) (f : Bg → ℝ → ℝ) {z : ℝ} (h1 : 0 ≤ z)
    (h2 : z ≤ 15) : backgroundAt N f z s = (.ok (.real (f b z)), s) := by
  unfold backgroundAt
  refine (Py.bind_ok (checkReal_ok h1 h2 s)).trans ((Py.bind_ok (ensureBg_some N s b hb)).trans ?_)
  rw [hb]

theorem backgroundRow_ok {M : CliNum} {s : PyObj} {b : Bg} (hb : s.bg = some b) (v : BgView) {z : ℝ} (h1 : 0 ≤ z)
    (h2 : z ≤ 15) : backgroundRow M v z s =
      (.ok (((b.record (M.Hz v) (M.conformal_Hz_prime v) z).map Prod.snd).map Cell.number), s) := by
  unfold backgroundRow
  rw [Py.bind_ok (backgroundAt_ok hb _ h1 h2), Py.bind_ok (backgroundAt_ok hb _ h1 h2),
    Py.bind_ok (backgroundAt_ok hb _ h1 h2), Py.bind_ok (backgroundAt_ok hb _ h1 h2),
    Py.bind_ok (backgroundAt_ok hb _ h1 h2), Py.bind_ok (backgroundAt_ok hb _ h1 h2),
    Py.bind_ok (backgroundAt_ok hb _ h1 h2)]
  rfl

theorem eachRow_ok {f : ℝ → Py (List ℝ)} {g : ℝ → List ℝ} {s : PyObj} : ∀ zs : List ℝ,
    (∀ z ∈ zs, f z s = (.ok (g z), s)) → eachRow f zs s = (.ok (zs.map g), s)
  | [], _ => rfl
  | z :: zs, h => by
    unfold eachRow
    rw [Py.bind_ok (h z (by simp)), Py.bind_ok (eachRow_ok zs fun z hz => h z (by simp [hz]))]
    rfl

theorem backgroundInit_cases (N : Num) (s : PyObj) : (∃ e, backgroundInit N s = (.error e, s)) ∨
    ∃ b, backgroundInit N s = (.ok (), { s with bg := some b }) := by
  rw [backgroundInit_eq]
  split_ifs
  · exact .inl ⟨_, rfl⟩
  · cases N.background s.par.bgView with
    | none => exact .inl ⟨_, rfl⟩
    | some b => exact .inr ⟨b, rfl⟩

theorem backgroundRows_ok {M : CliNum} {s : PyObj} {b : Bg} (h : backgroundInit M.num s = (.ok (), { s with bg := some b })) :
    backgroundRows M s = (.ok (((linspace 0 15 s.par.background_bins.toNat).map
      (b.record (M.Hz s.par.bgView) (M.conformal_Hz_prime s.par.bgView))).map fun r => (r.map Prod.snd).map Cell.number),
      { s with bg := some b }) := by
  unfold backgroundRows
  rw [Py.bind_ok h, Py.bind_ok (Py.get_eq _)]
  rw [eachRow_ok (g := fun z => ((b.record (M.Hz s.par.bgView) (M.conformal_Hz_prime s.par.bgView) z).map Prod.snd).map Cell.number)]
  · rw [List.map_map]; rfl
  · intro z hz
    obtain ⟨h1, h2⟩ := linspace_bounds _ z hz
    exact backgroundRow_ok rfl _ h1 h2

/-! ## Records and rows -/

/-- The conversions of the columns of a kind. -/
def OutKind.conversions : OutKind → List Conversion
  | .bg => List.replicate 8 .e10
  | .cf => List.replicate 4 .e10
  | .mp => [.e10, .d, .e10, .e10]
  | .avg_mp => [.e10, .d, .e10, .e10, .e10]
  | .cov => [.e10, .e10, .d, .d, .e10, .e10]
  | .avg_cov => [.e10, .e10, .d, .d, .e10, .e10, .e10]

theorem savetxt_table (R : Rounding) (k : OutKind) (records : List (List (String × Cell)))
    (h : ∀ r ∈ records, r.map Prod.fst = k.names ∧ (r.map Prod.snd).map Cell.conversion = k.conversions)
    (hne : k = .bg ∨ records ≠ []) :
    ∃ T, savetxt R k.names k.format (records.map fun r => (r.map Prod.snd).map Cell.number) = (.ok (), some T) ∧
      IsTable T k.names records := by
  have hplain : ∀ n ∈ k.names, Plain n.toList := by
    cases k <;> unfold OutKind.names <;> intro n hn <;> simp only [List.mem_cons, List.not_mem_nil, or_false] at hn <;>
      rcases hn with rfl | rfl | rfl | rfl | rfl | rfl | rfl | rfl <;> (constructor <;> decide +kernel)
  have hnames : k.names ≠ [] := by cases k <;> simp [OutKind.names]
  have ht := isTable_of R k.names k.conversions records hnames hplain h
  have hcol : records ≠ [] → arrayColumns (records.map fun r => (r.map Prod.snd).map Cell.number) = k.conversions.length := by
    intro hr
    cases records with
    | nil => exact absurd rfl hr
    | cons r rs =>
      rw [← (h r (by simp)).2]
      simp [arrayColumns]
  have hone : k.format = .one .e10 → k.conversions = List.replicate k.conversions.length .e10 := by
    cases k <;> simp [OutKind.format, OutKind.conversions]
  have hmany : ∀ l, k.format = .many l → l = k.conversions ∧ k ≠ .bg := by
    cases k <;> simp [OutKind.format, OutKind.conversions]
  refine ⟨_, ?_, ht⟩
  unfold savetxt
  dsimp only
  cases hf : k.format with
  | one c =>
    have hc : c = .e10 := by
      revert hf
      cases k <;> simp [OutKind.format] <;> exact fun h => h.symm
    subst hc
    dsimp only
    by_cases hr : records = []
    · subst hr; rfl
    · rw [hcol hr, ← hone hf]
  | many l =>
    obtain ⟨rfl, hk⟩ := hmany l hf
    dsimp only
    rw [if_pos (hcol (hne.resolve_left hk)).symm]

/-- The records of a list of results. -/
def Out.records : Out → List (List (String × Cell))
  | .corrfunc l => l.map CfRow.record
  | .multipoles l => l.map MpRow.record
  | .average l => l.map AmpRow.record
  | .covariance l => l.map CovRow.record
  | .averageCovariance l => l.map AcovRow.record
  | _ => []

theorem rows_records (o : Out) : o.rows = o.records.map fun r => (r.map Prod.snd).map Cell.number := by
  cases o <;> unfold Out.rows Out.records <;> first | rfl | (dsimp only; rw [List.map_map]; rfl)

end Coffe
