import Verif.Proofs.ParserAccepts
import Verif.Spec.WitnessParser
import Verif.Props.Grid

/-!
# The settings parser (C39)

`coffe_parser_init E R c` is the parser of the C program on the settings file `c`: it returns parameters, ends the
program (`.error .exit`) or does something undefined (any other error).
-/

namespace Coffe
open Classical

variable {E : ParserEnv} {R : ClassRun} {c : Conf} {p : CPar}

/-- **C39, partial**: parameters that come out of the parser passed all the checks of `Checked`.  Not all of the
preconditions of later stages are among them; see the theorems that end in `_false`. -/
theorem C39_checked_partial (h : coffe_parser_init E R c = .ok p) : Checked E c p := parser_checked h

/-- **C39**: every parameter that comes out of the parser is the one written in the file. -/
theorem C39_faithful (h : coffe_parser_init E R c = .ok p) : Faithful E c p := parser_faithful h

/-- **C39**: the parameters of the power spectrum are the ones written in the file. -/
theorem C39_faithful_spectrum (h : coffe_parser_init E R c = .ok p) : FaithfulSpectrum E c p :=
  parser_faithful_spectrum h

/-- **C39**: a file that has everything its output type needs is accepted. -/
theorem C39_accepts {ty : ℤ} (H : Complete E c ty) : ∃ p, coffe_parser_init E R c = .ok p := parser_accepts H

/-- **C39**: so is one that has what CLASS needs, if CLASS gives a spectrum. -/
theorem C39_accepts_class {ty : ℤ} (H : Complete { E with have_class := false } c ty) (C : CompleteClass E R c) :
    ∃ p, coffe_parser_init E R c = .ok p := parser_accepts_class H C

/-- **C39**: redshifts that are not positive are rejected. -/
theorem C39_rejects_redshift {ty : ℤ} {l : List ℝ} {z : ℝ} (ht : lookup_int c "output_type" = some ty)
    (hty : ty = 1 ∨ ty = 2 ∨ ty = 4) (hl : ListsReal c "z_mean" l) (hz : z ∈ l) (h0 : z ≤ 0) :
    coffe_parser_init E R c ≠ .ok p := by
  intro h
  have e := (parser_faithful h).output_type
  rw [ht] at e
  have hm : HasMean p := by
    unfold HasMean
    rw [← Option.some.inj e]
    exact hty
  have := (parser_checked h).redshifts hm z (by rw [(parser_faithful h).z_mean hm l hl]; exact hz)
  linarith

/-- **C39**: lists of different lengths are rejected for covariances. -/
theorem C39_rejects_lengths {n1 n2 f z d x : List ℝ} (ht : lookup_int c "output_type" = some 4)
    (h1 : ListsReal c "density1" n1) (h2 : ListsReal c "density2" n2) (h3 : ListsReal c "fsky" f) (h4 : ListsReal c "z_mean" z)
    (h5 : ListsReal c "deltaz" d) (h6 : ListsReal c "pixelsize" x)
    (hne : ¬ (n2.length = n1.length ∧ f.length = n1.length ∧ z.length = n1.length ∧ d.length = n1.length ∧
      x.length = n1.length)) : coffe_parser_init E R c ≠ .ok p := by
  intro h
  have F := parser_faithful h
  have e := F.output_type
  rw [ht] at e
  have e := (Option.some.inj e).symm
  have hs : HasSurvey p := .inl e
  have := (parser_checked h).covariance e
  rw [F.density1 hs _ h1, F.density2 hs _ h2, F.fsky hs _ h3, F.z_mean (.inr (.inr e)) _ h4, F.deltaz e _ h5,
    F.pixelsize hs _ h6] at this
  exact hne this

/-- **C39**: lists of different lengths are rejected for redshift averaged covariances. -/
theorem C39_rejects_lengths_average {n1 n2 f a b : List ℝ} (ht : lookup_int c "output_type" = some 5)
    (h1 : ListsReal c "density1" n1) (h2 : ListsReal c "density2" n2) (h3 : ListsReal c "fsky" f) (h4 : ListsReal c "zmin" a)
    (h5 : ListsReal c "zmax" b)
    (hne : ¬ (n2.length = n1.length ∧ f.length = n1.length ∧ a.length = n1.length ∧ b.length = n1.length)) :
    coffe_parser_init E R c ≠ .ok p := by
  intro h
  have F := parser_faithful h
  have e := F.output_type
  rw [ht] at e
  have e := (Option.some.inj e).symm
  have hs : HasSurvey p := .inr e
  have := (parser_checked h).covariance_average e
  rw [F.density1 hs _ h1, F.density2 hs _ h2, F.fsky hs _ h3, F.zmin e _ h4, F.zmax e _ h5] at this
  exact hne this

/-- **C39**: with neither or both of the two ways to choose separations, the file is rejected. -/
theorem C39_rejects_sampling {ty : ℤ} (ht : lookup_int c "output_type" = some ty)
    (hty : ty = 1 ∨ ty = 2 ∨ ty = 3 ∨ ty = 4)
    (hne : ((lookup_int c "separations_sampling").isSome ↔ (lookup_float c "separations_step").isSome)) :
    coffe_parser_init E R c ≠ .ok p := by
  intro h
  have e := (parser_faithful h).output_type
  rw [ht] at e
  have hm : HasSep p := by
    unfold HasSep
    rw [← Option.some.inj e]
    exact hty
  have := (parser_checked h).one_choice hm
  rw [hne] at this
  cases hs : lookup_float c "separations_step" <;> rw [hs] at this <;> simp at this

/-- **C39**: two derivative switches are rejected if no switch is negative. -/
theorem C39_rejects_derivatives {x y z w : ℤ} (h1 : lookup_int c "b_derivative" = some x)
    (h2 : lookup_int c "f_derivative" = some y) (h3 : lookup_int c "b_tilde_derivative" = some z)
    (h4 : lookup_int c "f_tilde_derivative" = some w) (h0 : 0 ≤ x ∧ 0 ≤ y ∧ 0 ≤ z ∧ 0 ≤ w)
    (h5 : (x ≠ 0 ∧ y ≠ 0) ∨ (x ≠ 0 ∧ z ≠ 0) ∨ (x ≠ 0 ∧ w ≠ 0) ∨ (y ≠ 0 ∧ z ≠ 0) ∨ (y ≠ 0 ∧ w ≠ 0) ∨ (z ≠ 0 ∧ w ≠ 0)) :
    coffe_parser_init E R c ≠ .ok p := by
  intro h
  have F := parser_faithful h
  have e1 := F.b_derivative
  have e2 := F.f_derivative
  have e3 := F.b_tilde_derivative
  have e4 := F.f_tilde_derivative
  rw [h1] at e1
  rw [h2] at e2
  rw [h3] at e3
  rw [h4] at e4
  have := (parser_checked h).derivatives
  rw [← Option.some.inj e1, ← Option.some.inj e2, ← Option.some.inj e3, ← Option.some.inj e4] at this
  omega

/-- The witness files are complete if what depends on the output type is there. -/
theorem wConf_complete_of {E : ParserEnv} (e1 : E.have_class = false) (e2 : E.file "p".toList = none)
    (e3 : 5 ≤ E.default_spectrum.length ∧ (E.default_spectrum.map Prod.fst).Pairwise (· < ·)) (ty : ℤ) (l : List (String × Setting))
    (hl : ∀ x ∈ l, x.1 ∈ ["z_mean", "z_min", "z_max", "zmin", "zmax", "multipoles", "mu", "separations_sampling",
      "separations_step", "density1", "density2", "fsky", "deltaz", "pixelsize", "b_derivative",
      "f_derivative", "b_tilde_derivative", "output_path", "output_background"])
    (h1 : ty = 1 ∨ ty = 2 ∨ ty = 4 →
      wConf ty l "z_mean" = none ∨ ∃ z, ListsReal (wConf ty l) "z_mean" z ∧ ∀ x ∈ z, 0 < x)
    (h2 : ty = 1 ∨ ty = 2 ∨ ty = 3 ∨ ty = 4 → ((lookup_int (wConf ty l) "separations_sampling").isSome ↔
      (lookup_float (wConf ty l) "separations_step").isNone) ∧
      0 ≤ (lookup_int (wConf ty l) "separations_sampling").getD 0)
    (h3 : ∃ x y z, lookup_int (wConf ty l) "b_derivative" = some x ∧ lookup_int (wConf ty l) "f_derivative" = some y ∧
      lookup_int (wConf ty l) "b_tilde_derivative" = some z ∧ x + y + z ≤ 1)
    (h4 : ty = 4 → ∃ n1 n2 f z d x, ListsReal (wConf ty l) "density1" n1 ∧ ListsReal (wConf ty l) "density2" n2 ∧
      ListsReal (wConf ty l) "fsky" f ∧ ListsReal (wConf ty l) "z_mean" z ∧ ListsReal (wConf ty l) "deltaz" d ∧
      ListsReal (wConf ty l) "pixelsize" x ∧ n2.length = n1.length ∧ f.length = n1.length ∧ z.length = n1.length ∧
      d.length = n1.length ∧ x.length = n1.length)
    (h5 : ty = 5 → ∃ n1 n2 f a b, ListsReal (wConf ty l) "density1" n1 ∧ ListsReal (wConf ty l) "density2" n2 ∧
      ListsReal (wConf ty l) "fsky" f ∧ ListsReal (wConf ty l) "zmin" a ∧ ListsReal (wConf ty l) "zmax" b ∧
      n2.length = n1.length ∧ f.length = n1.length ∧ a.length = n1.length ∧ b.length = n1.length)
    (h6 : ∃ t, lookup_string (wConf ty l) "output_path" = some t ∧ t.length < 256)
    (h7 : ∃ x, ListsText (wConf ty l) "output_background" x) : Complete E (wConf ty l) ty := by
  have key : ∀ s ∉ ["z_mean", "z_min", "z_max", "zmin", "zmax", "multipoles", "mu", "separations_sampling",
      "separations_step", "density1", "density2", "fsky", "deltaz", "pixelsize", "b_derivative",
      "f_derivative", "b_tilde_derivative", "output_path", "output_background"],
      wConf ty l s = wConf ty [] s := by
    intro s hs
    unfold wConf
    rw [List.lookup_append]
    have : l.lookup s = none := by
      rw [List.lookup_eq_none_iff]
      intro x hx
      have := hl x hx
      simp only [bne_iff_ne, ne_eq]
      rintro rfl
      exact hs this
    rw [this]
    rfl
  have ki : ∀ s ∉ ["z_mean", "z_min", "z_max", "zmin", "zmax", "multipoles", "mu", "separations_sampling",
      "separations_step", "density1", "density2", "fsky", "deltaz", "pixelsize", "b_derivative",
      "f_derivative", "b_tilde_derivative", "output_path", "output_background"],
      lookup_int (wConf ty l) s = lookup_int (wConf ty []) s := fun s hs => by unfold lookup_int; rw [key s hs]
  have kf : ∀ s ∉ ["z_mean", "z_min", "z_max", "zmin", "zmax", "multipoles", "mu", "separations_sampling",
      "separations_step", "density1", "density2", "fsky", "deltaz", "pixelsize", "b_derivative",
      "f_derivative", "b_tilde_derivative", "output_path", "output_background"],
      lookup_float (wConf ty l) s = lookup_float (wConf ty []) s := fun s hs => by unfold lookup_float; rw [key s hs]
  have ks : ∀ s ∉ ["z_mean", "z_min", "z_max", "zmin", "zmax", "multipoles", "mu", "separations_sampling",
      "separations_step", "density1", "density2", "fsky", "deltaz", "pixelsize", "b_derivative",
      "f_derivative", "b_tilde_derivative", "output_path", "output_background"],
      lookup_string (wConf ty l) s = lookup_string (wConf ty []) s := fun s hs => by unfold lookup_string; rw [key s hs]
  exact {
    ints := by
      simp only [List.forall_mem_cons]
      refine ⟨?_, ?_, ?_, ?_, ?_, ?_, ?_, ?_, ?_, ?_, by simp⟩ <;> (rw [ki _ (by decide)]; exact ⟨_, rfl⟩)
    floats := by
      simp only [List.forall_mem_cons]
      refine ⟨?_, ?_, ?_, ?_, ?_, ?_, ?_, ?_, ?_, ?_, ?_, ?_, ?_, by simp⟩ <;>
        (rw [kf _ (by decide)]; exact ⟨_, rfl⟩)
    strings := by
      simp only [List.forall_mem_cons]
      refine ⟨h6, ?_, ?_, by simp⟩ <;> (rw [ks _ (by decide)]; exact ⟨_, rfl, by simp⟩)
    texts := by
      simp only [List.forall_mem_cons]
      refine ⟨h7, ⟨["den".toList], ?_⟩, by simp⟩
      unfold ListsText; rw [key _ (by decide)]; rfl
    flags := by
      simp only [List.forall_mem_cons]
      refine ⟨?_, ?_, ?_, ?_, ?_, ?_, by simp⟩ <;>
        (rw [ki _ (by decide)]; exact fun e => (by cases e))
    type := by rw [ki _ (by decide)]; rfl
    method := ⟨2, by rw [ki _ (by decide)]; rfl, by decide, by decide⟩
    covariance_method := by rw [ki _ (by decide)]; rfl
    derivatives := by
      obtain ⟨x, y, z, e1, e2, e3, e4⟩ := h3
      exact ⟨x, y, z, 0, e1, e2, e3, by rw [ki _ (by decide)]; rfl, by omega⟩
    window := by rw [ki _ (by decide)]; rfl
    no_class := .inl e1
    no_file := fun t ht => by
      rw [ks _ (by decide)] at ht
      cases ht
      exact e2
    spectrum := e3
    redshifts := h1
    separations := fun e => ⟨(10 : ℤ), (20 : ℤ), by rw [kf _ (by decide)]; rfl, by rw [kf _ (by decide)]; rfl,
      by norm_num, h2 e⟩
    covariance := h4
    covariance_average := h5 }

theorem wConf_complete (ty : ℤ) (l : List (String × Setting))
    (hl : ∀ x ∈ l, x.1 ∈ ["z_mean", "z_min", "z_max", "zmin", "zmax", "multipoles", "mu", "separations_sampling",
      "separations_step", "density1", "density2", "fsky", "deltaz", "pixelsize", "b_derivative",
      "f_derivative", "b_tilde_derivative"])
    (h1 : ty = 1 ∨ ty = 2 ∨ ty = 4 →
      wConf ty l "z_mean" = none ∨ ∃ z, ListsReal (wConf ty l) "z_mean" z ∧ ∀ x ∈ z, 0 < x)
    (h2 : ty = 1 ∨ ty = 2 ∨ ty = 3 ∨ ty = 4 → ((lookup_int (wConf ty l) "separations_sampling").isSome ↔
      (lookup_float (wConf ty l) "separations_step").isNone) ∧
      0 ≤ (lookup_int (wConf ty l) "separations_sampling").getD 0)
    (h3 : ∃ x y z, lookup_int (wConf ty l) "b_derivative" = some x ∧ lookup_int (wConf ty l) "f_derivative" = some y ∧
      lookup_int (wConf ty l) "b_tilde_derivative" = some z ∧ x + y + z ≤ 1)
    (h4 : ty ≠ 4) (h5 : ty ≠ 5) : Complete wEnv (wConf ty l) ty := by
  have key : ∀ s ∉ ["z_mean", "z_min", "z_max", "zmin", "zmax", "multipoles", "mu", "separations_sampling",
      "separations_step", "density1", "density2", "fsky", "deltaz", "pixelsize", "b_derivative",
      "f_derivative", "b_tilde_derivative"],
      wConf ty l s = wConf ty [] s := by
    intro s hs
    unfold wConf
    rw [List.lookup_append]
    have : l.lookup s = none := by
      rw [List.lookup_eq_none_iff]
      intro x hx
      have := hl x hx
      simp only [bne_iff_ne, ne_eq]
      rintro rfl
      exact hs this
    rw [this]
    rfl
  refine wConf_complete_of rfl rfl ⟨by decide, by simp only [wEnv]; norm_num⟩ ty l (fun x hx => ?_) h1 h2 h3
    (fun e => absurd e h4) (fun e => absurd e h5) ⟨"./".toList, ?_, by decide⟩ ⟨["z".toList], ?_⟩
  · exact List.mem_append_left ["output_path", "output_background"] (hl x hx)
  · unfold lookup_string
    rw [key _ (by decide)]
    rfl
  · unfold ListsText
    rw [key _ (by decide)]
    rfl

/-- The hypotheses of `C39_accepts`, `C39_checked_partial` and `C39_faithful` hold for a small calculation of
multipoles. -/
example : ∃ p, coffe_parser_init wEnv wRun
    (wConf 2 [("z_mean", wIntList [1, 2]), ("multipoles", wIntList [0, 2]), ("separations_sampling", wIntOne 5)]) = .ok p ∧
    p.z_mean = [1, 2] ∧ p.multipoles = [0, 2] ∧ p.sep.length = 5 := by
  obtain ⟨p, hp⟩ := C39_accepts (R := wRun) (wConf_complete 2
    [("z_mean", wIntList [1, 2]), ("multipoles", wIntList [0, 2]), ("separations_sampling", wIntOne 5)]
    (by simp) (fun _ => .inr ⟨[1, 2], ⟨_, rfl, by simp [Scalar.toFloat]⟩, by simp⟩) (fun _ => ⟨by decide, by decide⟩)
    ⟨0, 0, 0, rfl, rfl, rfl, by decide⟩ (by decide) (by decide))
  have F := C39_faithful hp
  have ht : p.output_type = 2 := (Option.some.inj F.output_type).symm
  refine ⟨p, hp, F.z_mean (.inr (.inl ht)) _ ⟨_, rfl, by simp [Scalar.toFloat]⟩,
    F.multipoles (.inl ht) _ ⟨_, rfl, by simp [Scalar.toInt]⟩, ?_⟩
  obtain ⟨a, b, _, _, _, h1, _⟩ := F.sep (.inr (.inl ht)) 5 rfl
  exact h1

/-- **C39 fails**: two lists of different lengths are accepted for redshift averaged multipoles, and the
calculation then reads past the end of the shorter list. -/
theorem C39_ranges_false (Q : Quad) (par : Par) (bg : Bg) (I : Ints) : ∃ c p,
    coffe_parser_init wEnv wRun c = .ok p ∧ p.output_type = AVERAGE_MULTIPOLES ∧ p.zmin.length ≠ p.zmax.length ∧
      average_multipoles_init Q par bg I p.zmin p.zmax (p.multipoles.map Int.toNat) p.sep = .error .oob := by
  obtain ⟨p, hp⟩ := C39_accepts (R := wRun) (wConf_complete 3
    [("z_min", wIntList [1, 2]), ("z_max", wIntList [2]), ("multipoles", wIntList [0]), ("separations_sampling", wIntOne 1)]
    (by simp) (fun e => by simp at e) (fun _ => ⟨by decide, by decide⟩)
    ⟨0, 0, 0, rfl, rfl, rfl, by decide⟩ (by decide) (by decide))
  have F := C39_faithful hp
  have ht : p.output_type = 3 := (Option.some.inj F.output_type).symm
  have h1 : p.zmin = [1, 2] := F.z_min ht _ ⟨_, rfl, by simp [Scalar.toFloat]⟩
  have h2 : p.zmax = [2] := F.z_max ht _ ⟨_, rfl, by simp [Scalar.toFloat]⟩
  have h3 : p.multipoles = [0] := F.multipoles (.inr (.inl ht)) _ ⟨_, rfl, by simp [Scalar.toInt]⟩
  obtain ⟨a, b, g1, _, _, g2, g3⟩ := F.sep (.inr (.inr (.inl ht))) 1 rfl
  have ga : a = 10 := by
    have : lookup_float (wConf 3 [("z_min", wIntList [1, 2]), ("z_max", wIntList [2]), ("multipoles", wIntList [0]),
      ("separations_sampling", wIntOne 1)]) "separations_min" = some ((10 : ℤ) : ℝ) := rfl
    rw [this] at g1
    rw [← Option.some.inj g1]
    norm_num
  have h4 : p.sep = [10] := by
    refine List.ext_getElem g2 fun i hi hj => ?_
    rw [g3 i hi]
    obtain rfl : i = 0 := by simpa using hj
    simp [ga]
  refine ⟨_, p, hp, ht, by rw [h1, h2]; simp, ?_⟩
  rw [h1, h2, h3, h4]
  exact C21_average_false Q par bg I

/-- **C39 fails**: the file may ask for steps, but then there are no separations at all. -/
theorem C39_step_false : ∃ c p, coffe_parser_init wEnv wRun c = .ok p ∧
    (∃ x, lookup_float c "separations_step" = some x ∧ 0 < x) ∧ p.sep = [] := by
  obtain ⟨p, hp⟩ := C39_accepts (R := wRun) (wConf_complete 3 [("separations_step", wIntOne 2)]
    (by simp) (fun e => by simp at e) (fun _ => ⟨by decide, by decide⟩)
    ⟨0, 0, 0, rfl, rfl, rfl, by decide⟩ (by decide) (by decide))
  obtain ⟨p1, p2, p3, p4, p5, p6, p7, p8, p9, p10, p11, p12, p13, p14, p15, p16, T⟩ := parser_trace.1 hp
  have ht : p.output_type = 3 := (Option.some.inj (C39_faithful hp).output_type).symm
  exact ⟨_, p, hp, ⟨(2 : ℤ), rfl, by norm_num⟩, parser_no_steps hp (.inr (.inr (.inl ht))) rfl⟩

/-- **C39 fails**: every output type is accepted, also those that do not exist. -/
theorem C39_output_type_false (ty : ℤ) (h : ty < 1 ∨ 5 < ty) : ∃ c p,
    coffe_parser_init wEnv wRun c = .ok p ∧ p.output_type = ty := by
  obtain ⟨p, hp⟩ := C39_accepts (R := wRun) (wConf_complete ty [] (by simp) (fun e => by omega) (fun e => by omega)
    ⟨0, 0, 0, rfl, rfl, rfl, by decide⟩ (by omega) (by omega))
  exact ⟨_, p, hp, (Option.some.inj (C39_faithful hp).output_type).symm⟩

/-- **C39 fails**: a file without mean redshifts is accepted. -/
theorem C39_empty_false : ∃ c p, coffe_parser_init wEnv wRun c = .ok p ∧ p.output_type = CORRFUNC ∧
    c "z_mean" = none ∧ p.z_mean = [] := by
  obtain ⟨p, hp⟩ := C39_accepts (R := wRun) (wConf_complete 1 [("separations_sampling", wIntOne 2)]
    (by simp) (fun _ => .inl rfl) (fun _ => ⟨by decide, by decide⟩)
    ⟨0, 0, 0, rfl, rfl, rfl, by decide⟩ (by decide) (by decide))
  have ht : p.output_type = 1 := (Option.some.inj (C39_faithful hp).output_type).symm
  exact ⟨_, p, hp, ht, rfl, parser_no_redshifts hp (.inl ht) rfl⟩

/-- **C39 fails**: two derivatives are accepted if a third switch is negative. -/
theorem C39_derivatives_false : ∃ c p, coffe_parser_init wEnv wRun c = .ok p ∧ p.b_derivative ≠ 0 ∧
    p.f_derivative ≠ 0 := by
  obtain ⟨p, hp⟩ := C39_accepts (R := wRun) (wConf_complete 0
    [("b_derivative", wIntOne 1), ("f_derivative", wIntOne 1), ("b_tilde_derivative", wIntOne (-1))]
    (by simp) (fun e => by simp at e) (fun e => by simp at e) ⟨1, 1, -1, rfl, rfl, rfl, by decide⟩ (by decide) (by decide))
  have F := C39_faithful hp
  refine ⟨_, p, hp, ?_, ?_⟩
  · rw [← Option.some.inj F.b_derivative]
    decide
  · rw [← Option.some.inj F.f_derivative]
    decide

/-- **C39 fails**: a file without the setting `interpolation` is not rejected, the program uses an uninitialised
variable. -/
theorem C39_interpolation_false (E : ParserEnv) (R : ClassRun) : ∃ c, c "interpolation" = none ∧
    coffe_parser_init E R c = .error .uninit := by
  refine ⟨fun s => if s = "interpolation" then none else wConf 0 [] s, rfl, ?_⟩
  unfold coffe_parser_init
  obtain ⟨q, hq⟩ : ∃ q, parse_general (fun s => if s = "interpolation" then none else wConf 0 [] s) (CPar.default E) =
      .ok q := ⟨_, parse_general_iff.2 ⟨0, 0, ["z".toList], 100, (1 : ℤ), (0 : ℤ), (0 : ℤ), rfl, rfl, rfl, rfl, rfl,
        rfl, rfl, rfl⟩⟩
  have ht : q.output_type = 0 := by
    obtain ⟨v, ty, bg, bins, m, b, g, h1, h2, h3, h4, h5, h6, h7, h8⟩ := parse_general_iff.1 hq
    rw [h8]
    exact (Option.some.inj h2).symm
  rw [hq]
  show (parse_z_mean _ q >>= fun p => _) = _
  have : parse_z_mean (fun s => if s = "interpolation" then none else wConf 0 [] s) q = .ok q := by
    unfold parse_z_mean
    rw [if_neg (by rw [ht]; decide)]
    rfl
  rw [this]
  rfl

end Coffe
