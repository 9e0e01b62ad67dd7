import Verif.Spec.FrontEnds
import Verif.Proofs.ParserOk
import Verif.Props.PyFileOptions

/-! # What the two front ends make of one settings file -/

namespace Coffe
open Classical

theorem forM_each {α : Type} {f : α → Py Unit} {l : List α} {s s' : PyObj} (h : (l.forM f : Py Unit) s = (.ok (), s')) :
    ∀ a ∈ l, ∃ u u', f a u = (.ok (), u') := by
  induction l generalizing s with
  | nil => intro a ha; cases ha
  | cons b l ih =>
    obtain ⟨u, h1, h2⟩ := Py.forM_done h
    intro a ha
    rcases List.mem_cons.1 ha with rfl | ha
    · exact ⟨s, u, h1⟩
    · exact ih h2 a ha

/-- A switch that the Python object accepts under its old name is written as an integer. -/
theorem legacy_int {o : SetOrder} {c : Config} {t : PyObj} (h : fromFile o c = .ok t) (ℓ : Legacy) (hr : ℓ.reader = .int)
    (x : Txt) (hx : c.legacy ℓ = some x) : ∃ k, x = .int k := by
  obtain ⟨s0, s1, t1, t2, t3, t4, t5, e0, -⟩ := file_stages h
  obtain ⟨u, u', h1⟩ := forM_each e0 ℓ (legacy_all ℓ)
  unfold readLegacy at h1
  rw [hx] at h1
  dsimp only at h1
  rw [hr] at h1
  have : ∃ n, n ∈ ℓ.names := by cases ℓ <;> exact ⟨_, List.mem_cons_self⟩
  obtain ⟨n, hn⟩ := this
  obtain ⟨v, v', h2⟩ := forM_each h1 n hn
  cases x with
  | int k => exact ⟨k, rfl⟩
  | _ => exact absurd h2 (by unfold assign Reader.read Txt.getint; dsimp only; intro h; cases h)

/-- The switch that makes the Python object read a bias function from a file is written as an integer. -/
theorem bias_int {o : SetOrder} {c : Config} {t : PyObj} (h : fromFile o c = .ok t) (b : BiasName)
    (x : Txt) (hx : (c.bias b).read = some x) : ∃ k, x = .int k := by
  obtain ⟨s0, s1, t1, t2, t3, t4, t5, e0, e0', e1, e2, e3, e4, e5, e6⟩ := file_stages h
  obtain ⟨u, u', h1⟩ := forM_each e6 b (by cases b <;> decide)
  unfold readBias at h1
  rw [hx] at h1
  dsimp only at h1
  cases x with
  | int k => exact ⟨k, rfl⟩
  | _ => exact absurd h1 (by unfold Txt.getint; dsimp only; intro h; cases h)

/-! ## One option -/

theorem txt_real {c : Conf} {s : String} {x : ℝ} (h : lookup_float c s = some x) :
    ∃ t, (c s).map Setting.txt = some t ∧ t.Spells (.float x) ∧ ∀ v y, t.Spells v → v.IsReal y → y = x := by
  unfold lookup_float at h
  cases hc : c s with
  | none => rw [hc] at h; cases h
  | some a =>
    rw [hc] at h
    cases a with
    | many l => cases h
    | one a =>
      cases a with
      | str a => cases h
      | int n =>
        cases h
        refine ⟨.int n, rfl, by simp [Txt.Spells], ?_⟩
        rintro v y (rfl | rfl | rfl | rfl) (hy | ⟨k, hy, rfl⟩ | ⟨hy, -⟩ | ⟨hy, -⟩) <;> cases hy <;> rfl
      | float r =>
        cases h
        refine ⟨.float x, rfl, by simp [Txt.Spells], ?_⟩
        rintro v y (rfl | rfl) (hy | ⟨k, hy, rfl⟩ | ⟨hy, -⟩ | ⟨hy, -⟩) <;> cases hy <;> rfl

theorem txt_int {c : Conf} {s : String} {k : ℤ} (h : lookup_int c s = some k) :
    ∃ t, (c s).map Setting.txt = some t ∧ (∀ n, t = .int n → n = k) ∧
      (∀ v n, t.Spells v → v.IsIntegral n → n = k) ∧ ∀ x, ¬ t.Spells (.str x) := by
  unfold lookup_int at h
  cases hc : c s with
  | none => rw [hc] at h; cases h
  | some a =>
    rw [hc] at h
    cases a with
    | many l => cases h
    | one a =>
      cases a with
      | str a => cases h
      | int n =>
        cases h
        refine ⟨.int k, rfl, fun n hn => by cases hn; rfl, ?_, by simp [Txt.Spells]⟩
        rintro v y (rfl | rfl | rfl | rfl) ((hy | ⟨hy, -⟩ | ⟨hy, -⟩) | hy)
        all_goals first
          | (exfalso; cases hy; done)
          | skip
        · cases hy; rfl
        · have := PyVal.float.inj hy
          exact_mod_cast this.symm
      | float r =>
        refine ⟨.float r, rfl, fun n hn => ?_, ?_, by simp [Txt.Spells]⟩
        · cases hn
        rintro v n (rfl | rfl) ((hy | ⟨hy, -⟩ | ⟨hy, -⟩) | hy)
        all_goals first
          | (exfalso; cases hy; done)
          | skip
        have hr : r = n := PyVal.float.inj hy
        subst hr
        have h' : (if (0 : ℝ) ≤ (n : ℝ) then ⌊(n : ℝ)⌋ else ⌈(n : ℝ)⌉) = k := Option.some.inj h
        rw [Int.floor_intCast, Int.ceil_intCast, ite_self] at h'
        exact h'

theorem filterMap_some {α β : Type} {f : α → Option β} : ∀ {vs : List α} {l : List β}, vs.map f = l.map some →
    vs.filterMap f = l
  | [], [], _ => rfl
  | [], _ :: _, h => by cases h
  | _ :: _, [], h => by cases h
  | v :: vs, a :: l, h => by
    simp only [List.map_cons, List.cons.injEq] at h
    rw [List.filterMap_cons_some h.1, filterMap_some h.2]

theorem ints_floats : ∀ vs : List Scalar, (∀ v ∈ vs, ∃ n, v = .int n) →
    (vs.filterMap Scalar.toInt).map (fun n : ℤ => (n : ℝ)) = vs.filterMap Scalar.toFloat
  | [], _ => rfl
  | v :: vs, h => by
    obtain ⟨n, rfl⟩ := h v List.mem_cons_self
    rw [List.filterMap_cons_some (show Scalar.toInt (.int n) = some n from rfl),
      List.filterMap_cons_some (show Scalar.toFloat (.int n) = some (n : ℝ) from rfl), List.map_cons,
      ints_floats vs fun v hv => h v (List.mem_cons_of_mem _ hv)]

theorem txt_reals {c : Conf} {s : String} {l : List ℝ} (h : ListsReal c s l) :
    ∃ t, (c s).map Setting.txt = some t ∧ ∀ v l', t.Spells v → v.IsReals l' → l' = l := by
  obtain ⟨vs, h1, h2⟩ := h
  have h3 := filterMap_some h2
  rw [h1]
  refine ⟨_, rfl, ?_⟩
  intro v l' hv hl
  unfold Setting.txt at hv
  dsimp only at hv
  split_ifs at hv with g1 g2
  · have h4 := ints_floats vs g1
    obtain ⟨-, rfl | rfl⟩ := hv
    · rcases hl with hl | ⟨ns, hl, rfl⟩
      · cases hl
      · cases hl
        rw [h4, h3]
    · rcases hl with hl | ⟨ns, hl, rfl⟩ <;> cases hl
      rw [h4, h3]
  · obtain ⟨-, rfl⟩ := hv
    rcases hl with hl | ⟨ns, hl, rfl⟩ <;> cases hl
    exact h3
  · exfalso
    apply g2
    intro v hv
    have : v.toFloat ∈ vs.map Scalar.toFloat := List.mem_map_of_mem hv
    rw [h2] at this
    obtain ⟨a, -, ha⟩ := List.mem_map.1 this
    rw [← ha]
    rfl

theorem txt_ints {c : Conf} {s : String} {l : List ℤ} (h : ListsInt c s l) :
    ∃ t, (c s).map Setting.txt = some t ∧ ∀ v l', t.Spells v → v = .ints l' → l' = l := by
  obtain ⟨vs, h1, h2⟩ := h
  have h3 := filterMap_some h2
  rw [h1]
  refine ⟨_, rfl, ?_⟩
  rintro v l' hv rfl
  unfold Setting.txt at hv
  dsimp only at hv
  split_ifs at hv with g1 g2
  · obtain ⟨-, hv | hv⟩ := hv
    · cases hv
      exact h3
    · cases hv
  · obtain ⟨-, hv⟩ := hv
    cases hv
  · cases hv

/-! ## One parameter -/

section
variable {E : ParserEnv} {o : SetOrder} {c : Conf} {t : PyObj}

theorem whole_other {n : Name} (hl : n ≠ .l_max_g ∧ n ≠ .l_max_ur) (v : PyVal) : n.Whole v := by
  rintro (h | h)
  exacts [absurd h hl.1, absurd h hl.2]

theorem own_text (ho : o.Valid) (h : fromFile o (pyView E c) = .ok t) (n : Name) (hn : ¬ n.Ignored)
    (hl : n ≠ .l_max_g ∧ n ≠ .l_max_ur) {x : Txt} (hx : (c n.text).map Setting.txt = some x) :
    ∃ w, x.SpellsFor n w ∧ n.doc.Accepted w (getattr PyPar.default n) (getattr t.par n) := by
  have := C67_partial o ho _ _ h n hn fun _ v _ _ => whole_other hl v
  rw [show (pyView E c).opt n = some x from hx, Option.some_or] at this
  exact this

theorem old_text (ho : o.Valid) (h : fromFile o (pyView E c) = .ok t) (n : Name) (ℓ : Legacy) (hn : n.old = some ℓ)
    (hc : n ∈ [Name.has_only_cross_correlations] ∨ ¬ n.Ignored ∧ c n.text = none) (hl : n ≠ .l_max_g ∧ n ≠ .l_max_ur)
    {x : Txt} (hx : (c ℓ.text).map Setting.txt = some x) :
    ∃ w, x.SpellsFor n w ∧ n.doc.Accepted w (getattr PyPar.default n) (getattr t.par n) := by
  have e : (pyView E c).oldText n = some x := by
    unfold Config.oldText
    rw [hn]
    exact hx
  rcases hc with hc | ⟨h1, h2⟩
  · rw [List.mem_singleton] at hc
    subst hc
    have := C67_old_names o ho _ _ h .has_only_cross_correlations (by simp [Name.Ignored]) (by simp)
    rw [e] at this
    exact this
  · have := C67_partial o ho _ _ h n h1 fun _ v _ _ => whole_other hl v
    rw [show (pyView E c).opt n = none by show (c n.text).map Setting.txt = none; rw [h2]; rfl, Option.none_or, e] at this
    exact this

theorem agree_cosmology (ho : o.Valid) (h : fromFile o (pyView E c) = .ok t) (n : Name) (hn : ¬ n.Ignored)
    {a b x : ℝ} (hd : n.doc = .cosmology a b) (hx : lookup_float c n.text = some x) :
    Retains n (getattr t.par n) x := by
  obtain ⟨s, h1, -, h2⟩ := txt_real hx
  obtain ⟨w, ⟨h3, -⟩, h4⟩ := own_text ho h n hn (by constructor <;> (rintro rfl; cases hd)) h1
  rw [hd] at h4
  obtain ⟨y, h5, -, -, h6⟩ := h4
  obtain rfl := h2 w y h3 h5
  rcases h6 with h6 | ⟨h6, z, h7, h8⟩
  · exact .inl h6
  · exact .inr ⟨h6, z, h6.trans h7, h8⟩

theorem agree_real (ho : o.Valid) (h : fromFile o (pyView E c) = .ok t) (n : Name) (hn : ¬ n.Ignored)
    {a b x : ℝ} (hd : n.doc = .real a b) (hx : lookup_float c n.text = some x) : getattr t.par n = .float x := by
  obtain ⟨s, h1, -, h2⟩ := txt_real hx
  obtain ⟨w, ⟨h3, -⟩, h4⟩ := own_text ho h n hn (by constructor <;> (rintro rfl; cases hd)) h1
  rw [hd] at h4
  obtain ⟨y, h5, -, -, h6⟩ := h4
  obtain rfl := h2 w y h3 h5
  exact h6

theorem agree_int (ho : o.Valid) (h : fromFile o (pyView E c) = .ok t) (n : Name) (hn : ¬ n.Ignored)
    {a b k : ℤ} (hd : n.doc = .int a b) (hx : lookup_int c n.text = some k) : getattr t.par n = .int k := by
  obtain ⟨s, h1, -, h2, -⟩ := txt_int hx
  obtain ⟨w, ⟨h3, -⟩, h4⟩ := own_text ho h n hn (by constructor <;> (rintro rfl; cases hd)) h1
  rw [hd] at h4
  obtain ⟨y, h5, -, -, h6⟩ := h4
  obtain rfl := h2 w y h3 (.inl h5)
  exact h6

theorem agree_reals (ho : o.Valid) (h : fromFile o (pyView E c) = .ok t) (n : Name) (hn : ¬ n.Ignored)
    {ok : ℝ → Prop} {l : List ℝ} (hd : n.doc = .reals ok) (hx : ListsReal c n.text l) :
    getattr t.par n = .floats l := by
  obtain ⟨s, h1, h2⟩ := txt_reals hx
  obtain ⟨w, ⟨h3, -⟩, h4⟩ := own_text ho h n hn (by constructor <;> (rintro rfl; cases hd)) h1
  rw [hd] at h4
  obtain ⟨l', h5, -, h6⟩ := h4
  obtain rfl := h2 w l' h3 h5
  exact h6

theorem agree_choice (ho : o.Valid) (h : fromFile o (pyView E c) = .ok t) (n : Name) (hn : ¬ n.Ignored)
    {first : ℕ} {names : List String} {k : ℤ} (hd : n.doc = .choice first names) (hx : lookup_int c n.text = some k) :
    ∃ i : ℕ, k = (first + i : ℕ) ∧ names[i]?.map PyVal.str = some (getattr t.par n) := by
  obtain ⟨s, h1, -, h2, h2'⟩ := txt_int hx
  obtain ⟨w, ⟨h3, -⟩, h4⟩ := own_text ho h n hn (by constructor <;> (rintro rfl; cases hd)) h1
  rw [hd] at h4
  obtain ⟨i, name, h5, h6, h7⟩ := h4
  refine ⟨i, ?_, by rw [h5, h7]; rfl⟩
  rcases h6 with h6 | rfl
  · exact (h2 w _ h3 h6).symm
  · exact absurd h3 (h2' name)

theorem agree_flag (ho : o.Valid) (h : fromFile o (pyView E c) = .ok t) (n : Name) (ℓ : Legacy) (hn : n.old = some ℓ)
    (hc : n ∈ [Name.has_only_cross_correlations] ∨ ¬ n.Ignored ∧ c n.text = none)
    {k : ℤ} (hd : n.doc = .flag) (hr : ℓ.reader = .int) (hx : lookup_int c ℓ.text = some k) :
    getattr t.par n = .bool (decide (k ≠ 0)) := by
  obtain ⟨s, h1, h2, -⟩ := txt_int hx
  obtain ⟨m, rfl⟩ := legacy_int h ℓ hr s h1
  obtain rfl := h2 m rfl
  obtain ⟨w, ⟨h3, h3'⟩, h4⟩ := old_text ho h n ℓ hn hc (by constructor <;> (rintro rfl; cases hd)) h1
  rw [hd] at h4
  rw [show getattr t.par n = .bool w.truth from h4]
  obtain ⟨j, rfl⟩ := h3' hd
  rcases h3 with h3 | h3 | h3 | h3 <;> cases h3
  rfl

theorem agree_multipoles (ho : o.Valid) (h : fromFile o (pyView E c) = .ok t) (hc : c "l" = none) {l : List ℤ}
    (hx : ListsInt c "multipoles" l) : getattr t.par .l = .ints l := by
  obtain ⟨s, h1, h2⟩ := txt_ints hx
  obtain ⟨w, ⟨h3, -⟩, h4⟩ := old_text ho h .l .multipoles rfl (.inr ⟨by simp [Name.Ignored], hc⟩) (by simp) h1
  obtain ⟨l', h5, -, h6⟩ := h4
  rcases h5 with rfl | ⟨rfl, rfl⟩
  · rw [h2 _ l' h3 rfl] at h6
    exact h6
  · exfalso
    cases s with
    | int n => rcases h3 with h3 | h3 | h3 | h3 <;> cases h3
    | float x => rcases h3 with h3 | h3 <;> cases h3
    | ints l =>
      obtain ⟨h3, h4 | h4⟩ := h3
      · cases h4
      · have := PyVal.floats.inj h4
        exact h3 (List.map_eq_nil_iff.1 this.symm)
    | floats l =>
      obtain ⟨h3, h4⟩ := h3
      cases h4
      exact h3 rfl
    | str x => cases h3

theorem agree_effect (ho : o.Valid) (h : fromFile o (pyView E c) = .ok t) (n : Name) (e : String) (he : n.effect = some e)
    (hc : n = .has_g2 ∨ ¬ n.Ignored ∧ c n.text = none) {l : List Text} (hl : ListsText c "correlation_contributions" l) :
    getattr t.par n = if e.toList ∈ l then .bool true else getattr PyPar.default n := by
  have hold : (pyView E c).oldText n = none := by
    unfold Config.oldText
    rw [(old_or_effect n).resolve_right (by rw [he]; simp)]
    rfl
  have hlist : (pyView E c).Lists n ↔ e.toList ∈ l := by
    have hcon : (pyView E c).contributions = some (l.map String.ofList) := by
      show (c "correlation_contributions").map Setting.strings = _
      rw [hl]
      show some (((l.map Scalar.str)).filterMap _) = _
      rw [List.filterMap_map]
      congr 1
      rw [← List.filterMap_eq_map]
      rfl
    constructor
    · rintro ⟨l', e', h1, h2, h3⟩
      rw [hcon] at h1
      cases h1
      rw [he] at h2
      cases h2
      obtain ⟨a, h4, rfl⟩ := List.mem_map.1 h3
      simpa using h4
    · intro h1
      exact ⟨_, e, hcon, he, List.mem_map.2 ⟨_, h1, by simp⟩⟩
  have key : (pyView E c).Gives n (getattr t.par n) none := by
    rcases hc with rfl | ⟨h1, h2⟩
    · have := C67_old_names o ho _ _ h .has_g2 (by simp [Name.Ignored]) (by simp)
      rw [hold] at this
      exact this
    · have := C67_partial o ho _ _ h n h1 fun _ v _ _ => whole_other (by constructor <;> (rintro rfl; cases he)) v
      rw [show (pyView E c).opt n = none by show (c n.text).map Setting.txt = none; rw [h2]; rfl, Option.none_or,
        hold] at this
      exact this
  have key' : getattr t.par n = if (pyView E c).Lists n then .bool true else getattr PyPar.default n := key
  rw [key']
  exact if_congr hlist rfl rfl

theorem agree_bias (h : fromFile o (pyView E c) = .ok t) (b : BiasName) {l : Samples}
    (hl : BiasFrom E c ("read_" ++ b.text) ("input_" ++ b.text) b.text l) (hi : c ("input_" ++ b.text) ≠ none)
    (hr : c (b.text ++ "_redshifts") = none) : SameBias l (t.par.bias.get b) := by
  obtain ⟨v, hv⟩ := Option.ne_none_iff_exists'.1 hi
  have hin : ((pyView E c).bias b).input ≠ none := by
    show (c ("input_" ++ b.text)).map _ ≠ none
    rw [hv]
    exact Option.some_ne_none _
  have hred : ((pyView E c).bias b).redshifts = none := by
    show (c (b.text ++ "_redshifts")).map _ = none
    rw [hr]
    rfl
  obtain ⟨hsays, -⟩ := C67_bias_partial o _ _ h b fun _ => hin
  by_cases hf : lookup_int c ("read_" ++ b.text) = some 1
  · obtain ⟨name, data, h1, h2, h3⟩ := hl.file hf
    have hread : ((pyView E c).bias b).read = some (.int 1) := by
      obtain ⟨s, g1, g2, -⟩ := txt_int hf
      have g3 : ((pyView E c).bias b).read = some s := g1
      obtain ⟨k, rfl⟩ := bias_int h b s g3
      rw [g3, g2 k rfl]
    have hinput : ((pyView E c).bias b).input = some (l.map Prod.fst, l.map Prod.snd) := by
      have : c ("input_" ++ b.text) = some (.one (.str name)) := by
        unfold lookup_string at h1
        split at h1
        · rename_i s hs
          cases h1
          exact hs
        · cases h1
      show (c ("input_" ++ b.text)).map _ = _
      rw [this]
      show some (columns E name) = _
      unfold columns
      rw [h2]
      dsimp only
      rw [h3]
    have := hsays ⟨_, .file _ _ hread hinput⟩
    generalize t.par.bias.get b = S at this
    cases this with
    | file x y g1 g2 =>
      rw [hinput] at g2
      cases g2
      left
      clear * -
      induction l with
      | nil => rfl
      | cons a l ih => rw [List.map_cons, List.map_cons, List.zip_cons_cons, ← ih]
    | value s x g1 => exact absurd hread g1
    | lists s s' x y g1 => exact absurd hread g1
  · obtain ⟨v, h1, h2⟩ := hl.value hf
    have hread : ((pyView E c).bias b).read ≠ some (.int 1) := by
      intro g
      apply hf
      have g' : (c ("read_" ++ b.text)).map Setting.txt = some (.int 1) := g
      unfold lookup_int
      cases hc : c ("read_" ++ b.text) with
      | none => rw [hc] at g'; cases g'
      | some a =>
        rw [hc] at g'
        have g'' : a.txt = .int 1 := Option.some.inj g'
        cases a with
        | one a => cases a <;> cases g''; rfl
        | many l =>
          exfalso
          unfold Setting.txt at g''
          dsimp only at g''
          split_ifs at g'' <;> cases g''
    obtain ⟨s, g1, g2, g3⟩ := txt_real h1
    have := hsays ⟨_, .value s v hread g1 g2⟩
    generalize t.par.bias.get b = S at this
    cases this with
    | file x y q => exact absurd q hread
    | lists s s' x y q1 q2 => rw [hred] at q2; cases q2
    | value s' x q1 q2 q3 =>
      have : s' = s := Option.some.inj (q2.symm.trans g1)
      subst this
      have : x = v := g3 _ x q3 (.inl rfl)
      subst this
      refine .inr ⟨x, h2, ?_⟩
      intro y hy
      obtain ⟨z, -, rfl⟩ := List.mem_map.1 hy
      rfl

theorem agree_N_ncdm (ho : o.Valid) (h : fromFile o (pyView E c) = .ok t) {k : ℤ} (hx : lookup_int c "N_ncdm" = some k) :
    getattr t.par .N_ncdm = .int k := by
  obtain ⟨s, h1, -, h2, -⟩ := txt_int hx
  obtain ⟨w, ⟨h3, -⟩, h4⟩ := own_text ho h .N_ncdm (by simp [Name.Ignored]) (by simp) h1
  obtain ⟨n, h5, -, -, h6⟩ := h4
  obtain rfl := h2 w n h3 (.inl h5)
  rcases h6 with h6 | ⟨h6, m, h7, h8⟩
  · exact h6
  · have hm : m = 1 := (PyVal.int.inj (show PyVal.int 1 = .int m from h7)).symm
    subst hm
    have : n = 1 := by
      by_contra hne
      have h9 : (1 : ℝ) ≤ |(n : ℝ) - (1 : ℤ)| := by
        rw [← Int.cast_sub, ← Int.cast_abs]
        exact_mod_cast Int.one_le_abs (sub_ne_zero.2 hne)
      have h10 := h9.trans h8
      norm_num at h10
    subst this
    exact h6

theorem front_ends_agree {R : ClassRun} {p : CPar} (hp : coffe_parser_init E R c = .ok p) (ho : o.Valid)
    (h : fromFile o (pyView E c) = .ok t) (hnew : ∀ s ∈ onlyPython, c s = none) : Agree E c p t.par := by
  have F := parser_faithful hp
  have S := parser_faithful_spectrum hp
  have K := parser_checked hp
  have flag : ∀ (n : Name) (ℓ : Legacy) (k : ℤ), n.old = some ℓ →
      n ∈ [Name.has_binned_covariance, .has_flatsky_local, .has_flatsky_local_nonlocal, .has_flatsky_nonlocal] →
      lookup_int c ℓ.text = some k → getattr t.par n = .bool (decide (k ≠ 0)) := by
    intro n ℓ k h1 h2 h3
    simp only [List.mem_cons, List.not_mem_nil, or_false] at h2
    rcases h2 with rfl | rfl | rfl | rfl <;> cases h1 <;>
      exact agree_flag ho h _ _ rfl (.inr ⟨by simp [Name.Ignored], hnew _ (by decide)⟩) rfl rfl h3
  have eff : ∀ (n : Name) (e : String), n.effect = some e → ∀ l, ListsText c "correlation_contributions" l →
      getattr t.par n = if e.toList ∈ l then .bool true else getattr PyPar.default n := by
    intro n e he l hl
    by_cases hg : n = .has_g2
    · exact agree_effect ho h n e he (.inl hg) hl
    · refine agree_effect ho h n e he (.inr ⟨?_, ?_⟩) hl
      · cases n <;> simp [Name.effect, Name.Ignored] at *
      · cases n <;> first
          | (exfalso; cases he; done)
          | exact absurd rfl hg
          | exact hnew _ (by decide)
  have bias : ∀ (b : BiasName) (l : Samples), b ≠ .galaxy3 → b ≠ .galaxy4 →
      BiasFrom E c ("read_" ++ b.text) ("input_" ++ b.text) b.text l →
      c ("input_" ++ b.text) ≠ none → SameBias l (t.par.bias.get b) := by
    intro b l h3 h4 hl hi
    refine agree_bias h b hl hi (hnew _ ?_)
    cases b <;> first
      | exact absurd rfl h3
      | exact absurd rfl h4
      | decide
  exact {
    omega_m := agree_cosmology ho h .omega_m (by simp [Name.Ignored]) rfl F.Omega0_m
    omega_baryon := agree_cosmology ho h .omega_baryon (by simp [Name.Ignored]) rfl F.Omega0_baryon
    omega_gamma := agree_cosmology ho h .omega_gamma (by simp [Name.Ignored]) rfl F.Omega0_gamma
    w0 := agree_cosmology ho h .w0 (by simp [Name.Ignored]) rfl F.w0
    wa := agree_cosmology ho h .wa (by simp [Name.Ignored]) rfl F.wa
    h := fun u => agree_cosmology ho h .h (by simp [Name.Ignored]) rfl (S.h u)
    n_s := fun u => agree_cosmology ho h .n_s (by simp [Name.Ignored]) rfl (S.n_s u)
    sigma8 := fun u x hx => by
      rw [S.sigma8 u x hx]
      exact agree_cosmology ho h .sigma8 (by simp [Name.Ignored]) rfl hx
    T_cmb := fun u x hx => by
      rw [S.T_cmb u x hx]
      exact agree_cosmology ho h .T_cmb (by simp [Name.Ignored]) rfl hx
    N_ur := fun u x hx => by
      rw [S.N_ur u x hx]
      exact agree_cosmology ho h .N_ur (by simp [Name.Ignored]) rfl hx
    m_ncdm := fun u x hx => by
      rw [S.m_ncdm u x hx]
      exact agree_cosmology ho h .m_ncdm (by simp [Name.Ignored]) rfl hx
    YHe := fun u x hx => by
      rw [S.YHe u x hx]
      exact agree_cosmology ho h .YHe (by simp [Name.Ignored]) rfl hx
    A_s := fun u x hx => by
      rw [S.A_s u x hx]
      exact agree_real ho h .A_s (by simp [Name.Ignored]) rfl hx
    N_ncdm := fun u x hx => by
      rw [S.N_ncdm u x hx]
      exact agree_N_ncdm ho h hx
    pk_type := fun u => by
      obtain ⟨i, h1, h2⟩ := agree_choice ho h .pk_type (by simp [Name.Ignored]) rfl (S.pk_type u)
      rw [zero_add] at h1
      exact ⟨i, h1, h2⟩
    background_sampling := agree_int ho h .background_sampling (by simp [Name.Ignored]) rfl F.background_bins
    integration_sampling := agree_int ho h .integration_sampling (by simp [Name.Ignored]) rfl F.integration_bins
    covariance_integration_method := by
      obtain ⟨i, h1, h2⟩ := agree_choice ho h .covariance_integration_method (by simp [Name.Ignored]) rfl
        F.covariance_integration_method
      rcases K.covariance_method with h3 | h3
      · rw [if_pos h3]
        obtain rfl : i = 0 := by rw [h3] at h1; push_cast at h1; omega
        exact (Option.some.inj h2).symm
      · rw [if_neg (by rw [h3]; decide)]
        obtain rfl : i = 1 := by rw [h3] at h1; push_cast at h1; omega
        exact (Option.some.inj h2).symm
    covariance_interpolation_method := fun hm => by
      obtain ⟨i, h1, h2⟩ := agree_choice ho h .covariance_interpolation_method (by simp [Name.Ignored]) rfl
        (F.covariance_interpolation_method hm)
      rcases (K.fftlog hm).2 with h3 | h3
      · rw [if_pos h3]
        obtain rfl : i = 0 := by rw [h3] at h1; push_cast at h1; omega
        exact (Option.some.inj h2).symm
      · rw [if_neg (by rw [h3]; decide)]
        obtain rfl : i = 1 := by rw [h3] at h1; push_cast at h1; omega
        exact (Option.some.inj h2).symm
    z_mean := fun q l hl => by
      rw [F.z_mean q l hl]
      exact agree_reals ho h .z_mean (by simp [Name.Ignored]) rfl hl
    deltaz := fun q l hl => by
      rw [F.deltaz q l hl]
      exact agree_reals ho h .deltaz (by simp [Name.Ignored]) rfl hl
    z_min := fun q l hl => by
      rw [F.z_min q l hl]
      exact agree_reals ho h .z_min (by simp [Name.Ignored]) rfl hl
    z_max := fun q l hl => by
      rw [F.z_max q l hl]
      exact agree_reals ho h .z_max (by simp [Name.Ignored]) rfl hl
    mu := fun q l hl => by
      rw [F.mu q l hl]
      exact agree_reals ho h .mu (by simp [Name.Ignored]) rfl hl
    fsky := fun q l hl => by
      rw [F.fsky q l hl]
      exact agree_reals ho h .fsky (by simp [Name.Ignored]) rfl hl
    pixelsize := fun q l hl => by
      rw [F.pixelsize q l hl]
      exact agree_reals ho h .pixelsize (by simp [Name.Ignored]) rfl hl
    multipoles := fun q l hl => by
      rw [F.multipoles q l hl]
      exact agree_multipoles ho h (hnew _ (by decide)) hl
    covariance_window := fun q => flag .has_binned_covariance .covariance_window _ rfl (by simp) (F.covariance_window q)
    flatsky_local := flag .has_flatsky_local .flatsky_local _ rfl (by simp) F.flatsky_local
    flatsky_local_nonlocal := flag .has_flatsky_local_nonlocal .flatsky_local_nonlocal _ rfl (by simp)
      F.flatsky_local_nonlocal
    flatsky_nonlocal := flag .has_flatsky_nonlocal .flatsky_nonlocal _ rfl (by simp) F.flatsky_nonlocal
    only_cross_correlations := agree_flag ho h .has_only_cross_correlations .only_cross_correlations rfl
      (.inl (by simp)) rfl rfl F.only_cross_correlations
    contributions := fun l hl hden => by
      rw [F.contributions l hl]
      have on : ∀ (n : Name) (e : String) (x : Bool), n.effect = some e → getattr t.par n = .bool x →
          getattr PyPar.default n = .bool false → x = decide (e.toList ∈ l) := by
        intro n e x h1 h2 h3
        have h4 := eff n e h1 l hl
        rw [h2, h3] at h4
        by_cases h5 : e.toList ∈ l
        · rw [if_pos h5] at h4
          rw [decide_eq_true h5]
          exact PyVal.bool.inj h4
        · rw [if_neg h5] at h4
          rw [decide_eq_false h5]
          exact PyVal.bool.inj h4
      have den : t.par.contrib.den = true := by
        have h4 := eff .has_density "den" rfl l hl
        rw [if_pos hden] at h4
        exact PyVal.bool.inj h4
      have e1 := on .has_rsd "rsd" _ rfl rfl rfl
      have e2 := on .has_lensing "len" _ rfl rfl rfl
      have e3 := on .has_d1 "d1" _ rfl rfl rfl
      have e4 := on .has_d2 "d2" _ rfl rfl rfl
      have e5 := on .has_g1 "g1" _ rfl rfl rfl
      have e6 := on .has_g2 "g2" _ rfl rfl rfl
      have e7 := on .has_g3 "g3" _ rfl rfl rfl
      have e8 := on .has_g4 "g4" _ rfl rfl rfl
      have e9 := on .has_g5 "g5" _ rfl rfl rfl
      have d : decide ("den".toList ∈ l) = true := decide_eq_true hden
      unfold Contrib.listed
      rw [d, ← e1, ← e2, ← e3, ← e4, ← e5, ← e6, ← e7, ← e8, ← e9, ← den]
    k_min := by
      obtain ⟨k, h1, h2⟩ := F.k_min
      exact ⟨k, agree_real ho h .k_min (by simp [Name.Ignored]) rfl h1, h2⟩
    k_max := by
      obtain ⟨k, h1, h2⟩ := F.k_max
      exact ⟨k, agree_real ho h .k_max (by simp [Name.Ignored]) rfl h1, h2⟩
    galaxy_bias1 := fun hi => bias .galaxy1 _ (by simp) (by simp) F.galaxy_bias1 hi
    galaxy_bias2 := fun hi => bias .galaxy2 _ (by simp) (by simp) F.galaxy_bias2 hi
    magnification_bias1 := fun hi => bias .magnification1 _ (by simp) (by simp) F.magnification_bias1 hi
    magnification_bias2 := fun hi => bias .magnification2 _ (by simp) (by simp) F.magnification_bias2 hi
    evolution_bias1 := fun hi => bias .evolution1 _ (by simp) (by simp) F.evolution_bias1 hi
    evolution_bias2 := fun hi => bias .evolution2 _ (by simp) (by simp) F.evolution_bias2 hi }

end

end Coffe
