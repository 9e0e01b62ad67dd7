import Verif.Spec.Main
import Verif.Props.TextWrite

/-! # The output directory and the files -/

namespace Coffe

/-! ## Programs -/

theorem Prog.bind_ok {α β : Type} {m : Prog α} {f : α → Prog β} {w w' : RunState} {a : α} (h : m w = (.ok a, w')) :
    (m >>= f) w = f a w' := by
  show (match m w with
    | (.ok a, w') => f a w'
    | (.error e, w') => (.error e, w')) = _
  rw [h]

theorem Prog.bind_err {α β : Type} {m : Prog α} {f : α → Prog β} {w w' : RunState} {e : CErr}
    (h : m w = (.error e, w')) : (m >>= f) w = (.error e, w') := by
  show (match m w with
    | (.ok a, w') => f a w'
    | (.error e, w') => (.error e, w')) = _
  rw [h]

theorem Prog.pure_eq {α : Type} (a : α) (w : RunState) : (pure a : Prog α) w = (.ok a, w) := rfl

theorem Prog.lift_ok {α : Type} {r : CRes α} {a : α} (h : r = .ok a) (w : RunState) : Prog.lift r w = (.ok a, w) := by
  rw [h]; rfl

/-! ## Paths -/

theorem pieces_plain {s : Text} (h : '/' ∉ s) : s.splitOnP (· = '/') = [s] :=
  List.splitOnP_eq_singleton fun x hx => by
    simp only [decide_eq_false_iff_not]
    rintro rfl
    exact h hx

theorem mem_pieces_plain {s t : Text} (h : t ∈ s.splitOnP (· = '/')) : '/' ∉ t := by
  induction s generalizing t with
  | nil => simp at h; simp [h]
  | cons c s ih =>
    rw [List.splitOnP_cons_eq_if_modifyHead] at h
    split at h
    · rcases List.mem_cons.mp h with rfl | h
      · simp
      · exact ih h
    · rename_i hc
      cases hs : s.splitOnP (· = '/') with
      | nil => exact absurd hs (List.splitOnP_ne_nil _ _)
      | cons u us =>
        rw [hs, List.modifyHead_cons] at h
        rcases List.mem_cons.mp h with rfl | h
        · intro hm
          rcases List.mem_cons.mp hm with rfl | hm
          · simp at hc
          · exact ih (hs ▸ List.mem_cons_self) hm
        · exact ih (hs ▸ List.mem_cons_of_mem _ h)

/-- The room that names need, each with a slash. -/
def room : List Text → ℕ
  | [] => 0
  | t :: l => t.length + 1 + room l

theorem room_filter (p : Text → Bool) (l : List Text) : room (l.filter p) ≤ room l := by
  induction l with
  | nil => exact le_rfl
  | cons a l ih =>
    rw [List.filter_cons]
    split <;> simp only [room] <;> omega

theorem pieces_length (s : Text) : room (s.splitOnP (· = '/')) = s.length + 1 := by
  induction s with
  | nil => simp [room]
  | cons c s ih =>
    rw [List.splitOnP_cons_eq_if_modifyHead]
    split
    · simp only [room, ih, List.length_nil, List.length_cons]; omega
    · cases hs : s.splitOnP (· = '/') with
      | nil => exact absurd hs (List.splitOnP_ne_nil _ _)
      | cons u us =>
        rw [hs] at ih
        simp only [List.modifyHead_cons, room, List.length_cons] at ih ⊢
        omega

theorem components_split (a b : Text) : components (a ++ '/' :: b) = components a ++ components b := by
  unfold components
  rw [List.splitOnP_append_cons a b (by simp), List.filter_append]

theorem components_nil : components [] = [] := by simp [components]

theorem components_plain {s : Text} (h : '/' ∉ s) : components s = if s = [] ∨ s = ['.'] then [] else [s] := by
  unfold components
  rw [pieces_plain h, List.filter_singleton]
  by_cases h1 : s = []
  · simp [h1]
  · by_cases h2 : s = ['.']
    · simp [h2]
    · rw [if_neg (by simp [h1, h2])]
      cases s with
      | nil => exact absurd rfl h1
      | cons c s => simp [h2]

theorem path_slash {s : Text} (h : s ≠ []) : path_of (s ++ ['/']) = path_of s := by
  unfold path_of
  rw [show s ++ ['/'] = s ++ '/' :: [] from rfl, components_split, components_nil, List.append_nil]
  cases s with
  | nil => exact absurd rfl h
  | cons c s => rfl

/-- Names below a directory. -/
theorem path_below {s t : Text} (h : s.getLast? = some '/') : path_of (s ++ t) = ((path_of s).1, (path_of s).2 ++ components t) := by
  obtain ⟨u, rfl⟩ : ∃ u, s = u ++ ['/'] := by
    have hne : s ≠ [] := by rintro rfl; simp at h
    refine ⟨s.dropLast, ?_⟩
    rw [List.getLast?_eq_getLast_of_ne_nil hne, Option.some.injEq] at h
    rw [← h, List.dropLast_append_getLast hne]
  unfold path_of
  rw [show u ++ ['/'] ++ t = u ++ '/' :: t by simp, components_split, show u ++ ['/'] = u ++ '/' :: [] from rfl,
    components_split, components_nil, List.append_nil]
  cases u <;> rfl

/-! ## Making the directory -/

/-- What making directories on the way to `l` may do to the file system. -/
structure Made (b : Bool) (l : List Text) (d d' : Disk) : Prop where
  file : d'.file = d.file
  may : d'.may = d.may
  old : ∀ q, d.dir q = true → d'.dir q = true
  new : ∀ q, d'.dir q = true → d.dir q = true ∨ q.1 = b ∧ q.2 <+: l

theorem Made.refl (b : Bool) (l : List Text) (d : Disk) : Made b l d d := ⟨rfl, rfl, fun _ h => h, fun _ h => .inl h⟩

theorem strncat_ok {s t : Text} (h : s.length + t.length < COFFE_MAX_STRLEN) : strncat s t = .ok (s ++ t) := if_pos h

theorem make_dirs_ok (b : Bool) (full : List Text) (d : Disk) (apart : ∀ q, d.dir q = true → d.file q = none)
    (way : ∀ l, l <+: full → d.dir (b, l) = true ∨ d.file (b, l) = none ∧ d.may (b, l) = true) (log : List Stage) :
    ∀ (ps : List Text) (out : Text) (C : List Text) (e : Disk), (∀ t ∈ ps, t ≠ [] ∧ '/' ∉ t) →
      full = C ++ ps.filter (fun t => t ≠ ['.']) → (out = [] ∧ b = false ∧ C = [] ∨ out.getLast? = some '/' ∧ path_of out = (b, C)) →
      out.length + room ps < COFFE_MAX_STRLEN → Made b full d e → e.dir (b, C) = true →
      ∃ out' e', make_dirs ps out ⟨e, log⟩ = (.ok (some out'), ⟨e', log⟩) ∧
        (out' = [] ∧ ps = [] ∧ out = [] ∨ out'.getLast? = some '/' ∧ path_of out' = (b, full)) ∧
        out'.length = out.length + room ps ∧ Made b full d e' ∧ e'.dir (b, full) = true := by
  intro ps
  induction ps with
  | nil =>
    intro out C e _ hC hout hlen hm hd
    have hC : full = C := by simpa using hC
    subst hC
    refine ⟨out, e, rfl, ?_, by simp [room], hm, hd⟩
    rcases hout with ⟨h1, _, _⟩ | h
    · exact .inl ⟨h1, rfl, h1⟩
    · exact .inr h
  | cons c cs ih =>
    intro out C e hps hC hout hlen hm hd
    obtain ⟨hc, hc'⟩ := hps c List.mem_cons_self
    simp only [room] at hlen
    have hs : strncat out c = .ok (out ++ c) := strncat_ok (by omega)
    have hs2 : strncat (out ++ c) ['/'] = .ok (out ++ c ++ ['/']) := strncat_ok (by simp; omega)
    have hne : out ++ c ≠ [] := by simp [hc]
    have hlast : (out ++ c).getLast? ≠ some '/' := by
      rw [List.getLast?_append_of_ne_nil _ hc]
      intro h
      exact hc' (List.mem_of_getLast? h)
    have hpath : path_of (out ++ c) = (b, C ++ components c) := by
      rcases hout with ⟨rfl, rfl, rfl⟩ | ⟨h1, h2⟩
      · rw [List.nil_append, List.nil_append]
        unfold path_of
        have : ¬ c.head? = some '/' := fun h => hc' (List.mem_of_mem_head? h)
        rw [decide_eq_false this]
      · rw [path_below h1, h2]
    have hpre : C ++ components c <+: full := by
      rw [hC, components_plain hc']
      by_cases h : c = ['.']
      · simp [h]
      · rw [if_neg (by simp [h, hc]), List.filter_cons_of_pos (by simpa using h)]
        exact ⟨cs.filter (fun t => t ≠ ['.']), by simp⟩
    have hnext : full = (C ++ components c) ++ cs.filter (fun t => t ≠ ['.']) := by
      rw [hC, components_plain hc']
      by_cases h : c = ['.']
      · simp [h]
      · rw [if_neg (by simp [h, hc]), List.filter_cons_of_pos (by simpa using h)]; simp
    have hout' : (out ++ c ++ ['/']).getLast? = some '/' ∧ path_of (out ++ c ++ ['/']) = (b, C ++ components c) :=
      ⟨by simp, by rw [path_slash hne, hpath]⟩
    have hfin : ∀ e2, Made b full d e2 → e2.dir (b, C ++ components c) = true →
        ∃ out' e', make_dirs cs (out ++ c ++ ['/']) ⟨e2, log⟩ = (.ok (some out'), ⟨e', log⟩) ∧
        (out' = [] ∧ c :: cs = [] ∧ out = [] ∨ out'.getLast? = some '/' ∧ path_of out' = (b, full)) ∧
        out'.length = out.length + room (c :: cs) ∧ Made b full d e' ∧ e'.dir (b, full) = true := by
      intro e2 hm2 hd2
      obtain ⟨out', e', h1, h2, h3, h4, h5⟩ := ih (out ++ c ++ ['/']) (C ++ components c) e2
        (fun t ht => hps t (List.mem_cons_of_mem _ ht)) hnext (.inr hout') (by simp only [List.length_append, List.length_cons, List.length_nil]; omega) hm2 hd2
      refine ⟨out', e', h1, ?_, by rw [h3]; simp only [room, List.length_append, List.length_cons, List.length_nil]; omega, h4, h5⟩
      rcases h2 with ⟨_, _, h⟩ | h
      · simp at h
      · exact .inr h
    by_cases hdir : e.dir (b, C ++ components c) = true
    · have hstat : e.stat (out ++ c) = true := by
        unfold Disk.stat
        rw [hpath, hdir]
        simp [hc]
      obtain ⟨out', e', h1, h2⟩ := hfin e hm hdir
      refine ⟨out', e', ?_, h2⟩
      unfold make_dirs
      rw [Prog.bind_ok (Prog.lift_ok hs _), Prog.bind_ok (rfl : Prog.disk _ = _)]
      simp only [hstat, if_true]
      rw [Prog.bind_ok (Prog.lift_ok hs2 _), h1]
    · have hdir : e.dir (b, C ++ components c) = false := by simpa using hdir
      have hdd : d.dir (b, C ++ components c) = false := by
        cases h : d.dir (b, C ++ components c) with
        | false => rfl
        | true => rw [hm.old _ h] at hdir; exact absurd hdir (by simp)
      obtain ⟨hf, hmay⟩ : d.file (b, C ++ components c) = none ∧ d.may (b, C ++ components c) = true := by
        rcases way _ hpre with h | h
        · rw [hdd] at h; exact absurd h (by simp)
        · exact h
      have hstat : e.stat (out ++ c) = false := by
        unfold Disk.stat
        rw [hpath, hdir, hm.file, hf]
        simp
      have hdot : c ≠ ['.'] := by
        rintro rfl
        rw [components_plain hc', if_pos (.inr rfl), List.append_nil, hd] at hdir
        exact absurd hdir (by simp)
      have hcc : components c = [c] := by rw [components_plain hc', if_neg (by simp [hdot, hc])]
      have hmk : e.mkdir (out ++ c) = some { e with dir := Function.update e.dir (b, C ++ components c) true } := by
        unfold Disk.mkdir
        rw [hpath, if_pos]
        refine ⟨hne, ?_, by rw [hm.file, hf]; rfl, by rw [hm.may]; exact hmay⟩
        unfold Disk.parent
        simp [hcc, hd]
      obtain ⟨out', e', h1, h2⟩ := hfin { e with dir := Function.update e.dir (b, C ++ components c) true }
        ⟨hm.file, hm.may, fun q h => by
          by_cases hq : q = (b, C ++ components c)
          · subst hq; simp
          · simp [Function.update_of_ne hq, hm.old q h], fun q h => by
          by_cases hq : q = (b, C ++ components c)
          · subst hq; exact .inr ⟨rfl, hpre⟩
          · exact hm.new q (by simpa [Function.update_of_ne hq] using h)⟩ (by simp)
      refine ⟨out', e', ?_, h2⟩
      unfold make_dirs
      rw [Prog.bind_ok (Prog.lift_ok hs _), Prog.bind_ok (rfl : Prog.disk _ = _)]
      simp only [hstat, hmk]
      rw [if_neg (by simp), Prog.bind_ok (rfl : Prog.setDisk _ _ = _), Prog.bind_ok (Prog.lift_ok hs2 _)]
      exact h1

theorem add_slash_ends {s : Text} (h : s.getLast? = some '/') : add_slash s = .ok s := by
  simp [add_slash, ends_slash, h, bind, Except.bind, pure, Except.pure]

theorem add_slash_other {s : Text} (hne : s ≠ []) (h : s.getLast? ≠ some '/') (hlen : s.length + 1 < COFFE_MAX_STRLEN) :
    add_slash s = .ok (s ++ ['/']) := by
  unfold add_slash ends_slash
  cases hs : s.getLast? with
  | none => exact absurd (List.getLast?_eq_none_iff.mp hs) hne
  | some c =>
    have : c ≠ '/' := by rintro rfl; exact h hs
    simp only [bind, Except.bind, this, decide_false, Bool.false_eq_true, if_false]
    exact strncat_ok (by simpa using hlen)

/-- The output directory exists afterwards. -/
theorem make_path_ok {d : Disk} {p : MainPar} {names : List String} (h : CanWrite d p names) (log : List Stage) :
    ∃ out e, output_make_path p.output_path ⟨d, log⟩ = (.ok out, ⟨e, log⟩) ∧ out.getLast? = some '/' ∧
      path_of out = path_of p.output_path ∧ out.length ≤ p.output_path.length + 1 ∧
      Made (path_of p.output_path).1 (path_of p.output_path).2 d e ∧ e.dir (path_of p.output_path) = true := by
  have hfits := h.fits
  by_cases hst : d.stat p.output_path = true
  · have hdir : d.dir (path_of p.output_path) = true := by
      rcases h.way _ (List.prefix_refl _) with h1 | ⟨h1, _⟩
      · exact h1
      · unfold Disk.stat at hst
        rw [show path_of p.output_path = ((path_of p.output_path).1, (path_of p.output_path).2) from rfl] at hst
        rw [h1] at hst
        simpa using (Bool.and_eq_true_iff.mp hst).2
    by_cases hl : p.output_path.getLast? = some '/'
    · refine ⟨p.output_path, d, ?_, hl, rfl, by omega, Made.refl _ _ _, hdir⟩
      unfold output_make_path
      rw [Prog.bind_ok (rfl : Prog.disk _ = _)]
      simp only [hst, if_true]
      exact Prog.lift_ok (add_slash_ends hl) _
    · refine ⟨p.output_path ++ ['/'], d, ?_, by simp, path_slash h.path, by simp, Made.refl _ _ _, hdir⟩
      unfold output_make_path
      rw [Prog.bind_ok (rfl : Prog.disk _ = _)]
      simp only [hst, if_true]
      exact Prog.lift_ok (add_slash_other h.path hl (by omega)) _
  · have hps : ∀ t ∈ (p.output_path.splitOnP (· = '/')).filter fun t => !t.isEmpty, t ≠ [] ∧ '/' ∉ t := by
      intro t ht
      rw [List.mem_filter] at ht
      exact ⟨by simpa using ht.2, mem_pieces_plain ht.1⟩
    have hfull : (path_of p.output_path).2 = [] ++
        ((p.output_path.splitOnP (· = '/')).filter fun t => !t.isEmpty).filter (fun t => t ≠ ['.']) := by
      rw [List.nil_append, List.filter_filter]
      unfold path_of components
      exact congrArg (fun f => List.filter f _) (funext fun t => Bool.and_comm _ _)
    have hsum : (if p.output_path.head? = some '/' then ['/'] else []).length +
        room ((p.output_path.splitOnP (· = '/')).filter fun t => !t.isEmpty) ≤ p.output_path.length + 1 := by
      rw [← pieces_length]
      cases hp : p.output_path with
      | nil => exact absurd hp h.path
      | cons c s =>
        by_cases hc : c = '/'
        · subst hc
          rw [List.splitOnP_cons_eq_if_modifyHead]
          simp only [decide_true, if_true, List.head?_cons, List.length_nil, room, List.length_cons, List.filter_cons,
            List.isEmpty_nil, Bool.not_true, Bool.false_eq_true, if_false]
          have := room_filter (fun t => !t.isEmpty) (s.splitOnP (· = '/'))
          omega
        · rw [if_neg (by simpa using hc)]
          have := room_filter (fun t => !t.isEmpty) ((c :: s).splitOnP (· = '/'))
          simp only [List.length_nil]
          omega
    obtain ⟨out, e, h1, h2, h3, h4, h5⟩ := make_dirs_ok (path_of p.output_path).1 (path_of p.output_path).2 d h.apart
      h.way log _ (if p.output_path.head? = some '/' then ['/'] else []) [] d hps hfull (by
        unfold path_of
        by_cases hh : p.output_path.head? = some '/'
        · refine .inr ⟨by simp [hh], ?_⟩
          rw [if_pos hh, decide_eq_true hh]
          exact Prod.ext rfl (show components ['/'] = [] by decide +kernel)
        · exact .inl (by simp [hh])) (lt_of_le_of_lt hsum (by omega)) (Made.refl _ _ _) (h.root _)
    have hlast : out.getLast? = some '/' ∧ path_of out = path_of p.output_path := by
      rcases h2 with ⟨_, hp, hz⟩ | h2
      · exfalso
        have hroot : path_of p.output_path = (decide (p.output_path.head? = some '/'), []) := by
          have : (path_of p.output_path).2 = [] := by rw [hfull, hp]; rfl
          rw [← this]; rfl
        apply hst
        unfold Disk.stat
        rw [hroot, h.root]
        simp [h.path]
      · exact h2
    refine ⟨out, e, ?_, hlast.1, hlast.2, h3.le.trans hsum, h4, h5⟩
    unfold output_make_path
    rw [Prog.bind_ok (rfl : Prog.disk _ = _), if_neg hst, Prog.bind_ok h1]
    exact Prog.lift_ok (add_slash_ends hlast.1) _

/-! ## Files -/

theorem fopen_w_ok {s : Text} {e : Disk} (h : e.opens s) (log : List Stage) :
    fopen_w s ⟨e, log⟩ = (.ok (some (path_of s)), ⟨e.put (path_of s) [], log⟩) := by
  unfold fopen_w
  rw [Prog.bind_ok (rfl : Prog.disk _ = _), if_pos h, Prog.bind_ok (rfl : Prog.setDisk _ _ = _)]
  rfl

theorem fopen_a_ok {s : Text} {e : Disk} (h : e.opens s) (log : List Stage) :
    fopen_a s ⟨e, log⟩ = (.ok (some (path_of s)), ⟨e.put (path_of s) (e.contents (path_of s)), log⟩) := by
  unfold fopen_a
  rw [Prog.bind_ok (rfl : Prog.disk _ = _), if_pos h, Prog.bind_ok (rfl : Prog.setDisk _ _ = _)]
  rfl

theorem fputs_ok (q : Path) (t : Text) (e : Disk) (log : List Stage) :
    fputs (some q) t ⟨e, log⟩ = (.ok (), ⟨e.put q (e.contents q ++ t), log⟩) := rfl

theorem put_contents (e : Disk) (q : Path) (t : Text) : (e.put q t).contents q = t := by
  simp [Disk.put, Disk.contents]

theorem put_put (e : Disk) (q : Path) (t u : Text) : (e.put q t).put q u = e.put q u := by
  simp [Disk.put]

theorem put_file (e : Disk) (q : Path) (t : Text) : (e.put q t).file q = some t := by simp [Disk.put]

theorem put_other (e : Disk) {q r : Path} (t : Text) (h : r ≠ q) : (e.put q t).file r = e.file r := by
  simp [Disk.put, Function.update_of_ne h]

theorem put_opens (e : Disk) (q : Path) (t s : Text) : (e.put q t).opens s ↔ e.opens s := Iff.rfl

/-- Opening for appending and writing twice. -/
theorem append_twice {s t u : Text} {e : Disk} (h : e.opens s) (log : List Stage) {α : Type} (k : Prog α) :
    (fopen_a s >>= fun data => (fputs data t >>= fun _ => (fputs data u >>= fun _ => k) : Prog α)) ⟨e, log⟩ =
      k ⟨e.put (path_of s) (e.contents (path_of s) ++ (t ++ u)), log⟩ := by
  rw [Prog.bind_ok (fopen_a_ok h log), Prog.bind_ok (fputs_ok _ _ _ _), Prog.bind_ok (fputs_ok _ _ _ _)]
  rw [put_contents, put_contents, put_put, put_put, List.append_assoc]

/-! ## Texts -/

theorem add_ok {n : ℕ} (b : Bool) (s : String) (g : Text) (h : g.length ≤ n) (hs : s.toList.length + n < 256) :
    (if b = true then strncat g s.toList else (pure g : CRes Text)) = .ok (g ++ if b = true then s.toList else []) := by
  cases b
  · simp [pure, Except.pure]
  · exact strncat_ok (by unfold COFFE_MAX_STRLEN; omega)

theorem add_length {n : ℕ} (b : Bool) (s : String) {g : Text} (h : g.length ≤ n) (hs : s.toList.length ≤ 4) :
    (g ++ if b = true then s.toList else []).length ≤ n + 4 := by
  cases b
  · simp; omega
  · simp only [if_true, List.length_append]; omega

theorem flat_one (b : Bool) (s t : String) (h : t.toList = s.toList ++ [' ']) :
    ((if b = true then [s] else []).flatMap fun s => s.toList ++ [' ']) = if b = true then t.toList else [] := by
  cases b
  · rfl
  · simp [h]

theorem contributions_ok (c : Contrib) (h : Text) (hlen : h.length ≤ 30) :
    contributions_header c h = .ok (h ++ (contribNames c).flatMap fun s => s.toList ++ [' ']) := by
  unfold contributions_header
  simp only [bind]
  rw [add_ok (n := 30) c.den "den " _ (by omega) (by decide)]
  have h0 := add_length c.den "den " (n := 30) (g := h) (by omega) (by decide)
  simp only [Except.bind]
  generalize hg0 : h ++ (if c.den then "den ".toList else []) = g0 at h0 ⊢
  rw [add_ok (n := 34) c.rsd "rsd " _ (by assumption) (by decide)]
  have h1 := add_length c.rsd "rsd " (n := 34) (g := g0) (by assumption) (by decide)
  simp only
  generalize hg1 : g0 ++ (if c.rsd then "rsd ".toList else []) = g1 at h1 ⊢
  rw [add_ok (n := 38) c.d1 "d1 " _ (by assumption) (by decide)]
  have h2 := add_length c.d1 "d1 " (n := 38) (g := g1) (by assumption) (by decide)
  simp only
  generalize hg2 : g1 ++ (if c.d1 then "d1 ".toList else []) = g2 at h2 ⊢
  rw [add_ok (n := 42) c.d2 "d2 " _ (by assumption) (by decide)]
  have h3 := add_length c.d2 "d2 " (n := 42) (g := g2) (by assumption) (by decide)
  simp only
  generalize hg3 : g2 ++ (if c.d2 then "d2 ".toList else []) = g3 at h3 ⊢
  rw [add_ok (n := 46) c.g1 "g1 " _ (by assumption) (by decide)]
  have h4 := add_length c.g1 "g1 " (n := 46) (g := g3) (by assumption) (by decide)
  simp only
  generalize hg4 : g3 ++ (if c.g1 then "g1 ".toList else []) = g4 at h4 ⊢
  rw [add_ok (n := 50) c.g2 "g2 " _ (by assumption) (by decide)]
  have h5 := add_length c.g2 "g2 " (n := 50) (g := g4) (by assumption) (by decide)
  simp only
  generalize hg5 : g4 ++ (if c.g2 then "g2 ".toList else []) = g5 at h5 ⊢
  rw [add_ok (n := 54) c.g3 "g3 " _ (by assumption) (by decide)]
  have h6 := add_length c.g3 "g3 " (n := 54) (g := g5) (by assumption) (by decide)
  simp only
  generalize hg6 : g5 ++ (if c.g3 then "g3 ".toList else []) = g6 at h6 ⊢
  rw [add_ok (n := 58) c.g4 "g4 " _ (by assumption) (by decide)]
  have h7 := add_length c.g4 "g4 " (n := 58) (g := g6) (by assumption) (by decide)
  simp only
  generalize hg7 : g6 ++ (if c.g4 then "g4 ".toList else []) = g7 at h7 ⊢
  rw [add_ok (n := 62) c.g5 "g5 " _ (by assumption) (by decide)]
  have h8 := add_length c.g5 "g5 " (n := 62) (g := g7) (by assumption) (by decide)
  simp only
  generalize hg8 : g7 ++ (if c.g5 then "g5 ".toList else []) = g8 at h8 ⊢
  rw [add_ok (n := 66) c.len "len " _ (by assumption) (by decide)]
  subst_vars
  unfold contribNames
  congr 1
  simp only [List.append_assoc, List.flatMap_append]
  rw [flat_one c.den "den" "den " (by decide)]
  rw [flat_one c.rsd "rsd" "rsd " (by decide)]
  rw [flat_one c.d1 "d1" "d1 " (by decide)]
  rw [flat_one c.d2 "d2" "d2 " (by decide)]
  rw [flat_one c.g1 "g1" "g1 " (by decide)]
  rw [flat_one c.g2 "g2" "g2 " (by decide)]
  rw [flat_one c.g3 "g3" "g3 " (by decide)]
  rw [flat_one c.g4 "g4" "g4 " (by decide)]
  rw [flat_one c.g5 "g5" "g5 " (by decide)]
  rw [flat_one c.len "len" "len " (by decide)]

theorem contribNames_length (c : Contrib) : ((contribNames c).flatMap fun s => s.toList ++ [' ']).length ≤ 40 := by
  obtain ⟨den, rsd, len, d1, d2, g1, g2, g3, g4, g5⟩ := c
  unfold contribNames
  simp only [List.flatMap_append, List.length_append]
  have h := fun (b : Bool) (s : String) (hs : s.toList.length ≤ 3) =>
    (show ((if b = true then [s] else []).flatMap fun s => s.toList ++ [' ']).length ≤ 4 by
      cases b
      · simp
      · simp only [if_true, List.flatMap_cons, List.flatMap_nil, List.append_nil, List.length_append, List.length_singleton]
        omega)
  have h0 := h den "den" (by decide)
  have h1 := h rsd "rsd" (by decide)
  have h2 := h d1 "d1" (by decide)
  have h3 := h d2 "d2" (by decide)
  have h4 := h g1 "g1" (by decide)
  have h5 := h g2 "g2" (by decide)
  have h6 := h g3 "g3" (by decide)
  have h7 := h g4 "g4" (by decide)
  have h8 := h g5 "g5" (by decide)
  have h9 := h len "len" (by decide)
  omega

theorem result_header_ok (c : Contrib) (columns : Text) (s : String) (h : s.toList = columns ++ ['\n'])
    (hlen : s.toList.length ≤ 40) : result_header c s = .ok (ofLines [contribLine c, columns]) := by
  have hn := contribNames_length c
  have h29 : "# correlation contributions: ".toList.length = 29 := by decide +kernel
  have hsn : snprintf "# correlation contributions: ".toList = "# correlation contributions: ".toList :=
    List.take_of_length_le (by rw [h29]; decide)
  unfold result_header contribLine
  rw [hsn]
  generalize "# correlation contributions: ".toList = t at *
  simp only [bind]
  rw [contributions_ok c _ (by omega)]
  simp only [Except.bind]
  rw [strncat_ok (by simp only [List.length_append, List.length_singleton, COFFE_MAX_STRLEN]; omega)]
  simp only
  rw [strncat_ok (by simp only [List.length_append, List.length_singleton, COFFE_MAX_STRLEN]; omega), h]
  simp [ofLines]

/-- The lines of an array. -/
theorem array_text_ok {κ : Type} {a : CArray κ} {l : List (κ × ℝ)} (h : a.Holds l) (row : κ → ℝ → Text) :
    array_text row a = .ok (ofLines (l.map fun x => row x.1 x.2)) := by
  unfold array_text upTo
  rw [h.size, cfor_text (l.length - 0) _ (fun i => if hi : i < l.length then row l[i].1 l[i].2 ++ ['\n'] else []) 0
    (fun i _ hi d => by
      have hi : i < l.length := by omega
      simp [h.coords i hi, h.value i hi, bind, Except.bind, pure, Except.pure, hi])]
  congr 1
  rw [List.nil_append, Nat.sub_zero, ← List.range_eq_range', ofLines, List.flatMap]
  congr 1
  refine List.ext_getElem (by simp) fun i h1 h2 => ?_
  have hi : i < l.length := by simpa using h1
  simp [hi]

end Coffe
