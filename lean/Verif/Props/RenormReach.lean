import Verif.Proofs.RenormReach
import Verif.Props.Parser

/-!
# C78 and C39: the widths of the bins that the table of the renormalisation needs
-/

namespace Coffe
open Classical

/-- If there are as many widths as mean redshifts, the range of the table is computed without leaving an array, and it is the
distance of the farthest edge. -/
theorem C78_range (chi : ℝ → ℝ) (z d zmax : List ℝ) (out : OutputType) (ho : out = .CORRFUNC ∨ out = .MULTIPOLES)
    (hz : z ≠ []) (hl : z.length ≤ d.length) :
    renormalization_range out chi z d zmax = .ok (renormalization_chi_max out chi z d zmax) := range_ok ho hz hl

theorem C78_range_average (chi : ℝ → ℝ) (z d zmax : List ℝ) (hz : zmax ≠ []) :
    renormalization_range .AVERAGE_MULTIPOLES chi z d zmax =
      .ok (renormalization_chi_max .AVERAGE_MULTIPOLES chi z d zmax) := range_average hz

example : renormalization_range .MULTIPOLES (fun z => 2 * z) [1, 2, 3 / 2] [1 / 2, 1 / 4, 1 / 2] [] = .ok (9 / 2) := by
  rw [C78_range _ _ _ _ _ (Or.inr rfl) (by simp) (by simp)]
  norm_num [renormalization_chi_max]

theorem parser_widths {E : ParserEnv} {R : ClassRun} {c : Conf} {p17 : CPar} (h : coffe_parser_init E R c = .ok p17)
    (hs : p17.output_type ≠ COVARIANCE_MULTIPOLES) : p17.deltaz = [0.2] ∧
      (p17.divergent = true ↔ p17.contrib.d2 ∨ p17.contrib.g1 ∨ p17.contrib.g2 ∨ p17.contrib.g3 ∨ p17.contrib.g4 ∨
        p17.contrib.g5) := by
  obtain ⟨p1, p2, p3, p4, p5, p6, p7, p8, p9, p10, p11, p12, p13, p14, p15, p16, T⟩ := parser_trace.1 h
  obtain ⟨v, ty, bg, bins, om, ob, og, a1, a2, a3, a4, a5, a6, a7, h1⟩ := parse_general_iff.1 T.s1
  obtain ⟨z2, h2, b1, b2⟩ := parse_z_mean_iff.1 T.s2
  have h3 := T.s3.symm.trans (parse_z_range_eq c p2)
  obtain ⟨im, c1, h4⟩ := parse_interpolation_iff.1 T.s4
  have h5 := T.s5.symm.trans (parse_mu_multipoles_eq c p4)
  obtain ⟨s6, h6, d1, d2⟩ := parse_separations_iff.1 T.s6
  obtain ⟨bessel, me, ib, cm, cb, ct, w0, wa, e1, e2, e3, e4, e5, e6, e7, e8, e9, e10, h7⟩ := parse_integration_ok T.s7
  obtain ⟨g1, g2, m1, m2, ev1, ev2, f1, f2, f3, f4, f5, f6, h8⟩ := parse_biases_iff.1 T.s8
  obtain ⟨n1, n2, fs, px, cw, h9, i1, i2⟩ := parse_survey_iff.1 T.s9
  obtain ⟨z10, dz, fs10, h10, j1, j2⟩ := parse_covariance_multipoles_iff.1 T.s10
  obtain ⟨zl, zr, h11, k1, k2⟩ := parse_covariance_average_iff.1 T.s11
  obtain ⟨l12, l1, h12⟩ := parse_contributions_iff.1 T.s12
  obtain ⟨path, pre, fa, fb, fd, o1, o2, o3, o4, o5, h13⟩ := parse_output_iff.1 T.s13
  obtain ⟨db, df, dbt, dft, q1, q2, q3, q4, q5, h14⟩ := parse_derivatives_iff.1 T.s14
  obtain ⟨ka, kb, hw, xc, ws, r1, r2, r3, r4, r5, r6, h15⟩ := parse_range_ok T.s15
  have h16 := (parse_spectrum_same T.s16).eq
  obtain ⟨ua, ub, u1, u2, u3, u4, h17⟩ := clamp_range_ok T.s17
  have xd : p17.deltaz = dz := ((congrArg CPar.deltaz h17 :).trans ((congrArg CPar.deltaz h16 :).trans ((congrArg CPar.deltaz h15 :).trans ((congrArg CPar.deltaz h14 :).trans ((congrArg CPar.deltaz h13 :).trans ((congrArg CPar.deltaz h12 :).trans (congrArg CPar.deltaz h11 :))))))).trans (congrArg CPar.deltaz h10 :)
  have x9 : p9.deltaz = [0.2] := ((congrArg CPar.deltaz h9 :).trans ((congrArg CPar.deltaz h8 :).trans ((congrArg CPar.deltaz h7 :).trans ((congrArg CPar.deltaz h6 :).trans ((congrArg CPar.deltaz h5 :).trans ((congrArg CPar.deltaz h4 :).trans ((congrArg CPar.deltaz h3 :).trans (congrArg CPar.deltaz h2 :)))))))).trans (congrArg CPar.deltaz h1 :)
  have t9 : p17.output_type = p9.output_type := ((congrArg CPar.output_type h17 :).trans ((congrArg CPar.output_type h16 :).trans ((congrArg CPar.output_type h15 :).trans ((congrArg CPar.output_type h14 :).trans ((congrArg CPar.output_type h13 :).trans ((congrArg CPar.output_type h12 :).trans ((congrArg CPar.output_type h11 :).trans (congrArg CPar.output_type h10 :))))))))
  have y11 : p11.divergent = false := ((congrArg CPar.divergent h11 :).trans ((congrArg CPar.divergent h10 :).trans ((congrArg CPar.divergent h9 :).trans ((congrArg CPar.divergent h8 :).trans ((congrArg CPar.divergent h7 :).trans ((congrArg CPar.divergent h6 :).trans ((congrArg CPar.divergent h5 :).trans ((congrArg CPar.divergent h4 :).trans ((congrArg CPar.divergent h3 :).trans (congrArg CPar.divergent h2 :)))))))))).trans (congrArg CPar.divergent h1 :)
  have yc : p17.contrib = p12.contrib := ((congrArg CPar.contrib h17 :).trans ((congrArg CPar.contrib h16 :).trans ((congrArg CPar.contrib h15 :).trans ((congrArg CPar.contrib h14 :).trans (congrArg CPar.contrib h13 :)))))
  have yd : p17.divergent = p12.divergent := ((congrArg CPar.divergent h17 :).trans ((congrArg CPar.divergent h16 :).trans ((congrArg CPar.divergent h15 :).trans ((congrArg CPar.divergent h14 :).trans (congrArg CPar.divergent h13 :)))))
  constructor
  · rw [xd, (j2 (by rw [← t9]; exact hs)).2.1, x9]
  · have c12 : p12.contrib = l12.foldl set_contribution Contrib.zero := (congrArg CPar.contrib h12 :)
    have d12 : p12.divergent = _ := (congrArg CPar.divergent h12 :)
    clear h12
    rw [yd, yc, d12, c12]
    dsimp only
    rw [y11]
    generalize l12.foldl set_contribution Contrib.zero = K
    simp only [Bool.false_or, Bool.or_eq_true, or_assoc]

/-- For the correlation function and the multipoles the executable has a single width, the default, whatever the file says. -/
theorem C39_widths {E : ParserEnv} {R : ClassRun} {c : Conf} {p : CPar} (h : coffe_parser_init E R c = .ok p)
    (hs : p.output_type ≠ COVARIANCE_MULTIPOLES) : p.deltaz = [0.2] := (parser_widths h hs).1

/-- A file with other contributions, otherwise the same. -/
noncomputable def withContributions (c : Conf) (l : List String) : Conf :=
  Function.update c "correlation_contributions" (some (.many (l.map fun s => .str s.toList)))

theorem Complete.withContributions {E : ParserEnv} {c : Conf} {ty : ℤ} (H : Complete E c ty) (l : List String) :
    Complete E (withContributions c l) ty := by
  have key : ∀ s, s ≠ "correlation_contributions" → Coffe.withContributions c l s = c s := fun s hs =>
    Function.update_of_ne hs _ _
  have ki : ∀ s, s ≠ "correlation_contributions" → lookup_int (Coffe.withContributions c l) s = lookup_int c s := fun s hs => by
    unfold lookup_int; rw [key s hs]
  have kf : ∀ s, s ≠ "correlation_contributions" → lookup_float (Coffe.withContributions c l) s = lookup_float c s :=
    fun s hs => by unfold lookup_float; rw [key s hs]
  have ks : ∀ s, s ≠ "correlation_contributions" → lookup_string (Coffe.withContributions c l) s = lookup_string c s :=
    fun s hs => by unfold lookup_string; rw [key s hs]
  have kr : ∀ s r, s ≠ "correlation_contributions" → (ListsReal (Coffe.withContributions c l) s r ↔ ListsReal c s r) :=
    fun s r hs => by unfold ListsReal; rw [key s hs]
  exact {
    ints := fun s hs => by rw [ki s (by rintro rfl; simp at hs)]; exact H.ints s hs
    floats := fun s hs => by rw [kf s (by rintro rfl; simp at hs)]; exact H.floats s hs
    strings := fun s hs => by rw [ks s (by rintro rfl; simp at hs)]; exact H.strings s hs
    texts := fun s hs => by
      by_cases e : s = "correlation_contributions"
      · subst e
        exact ⟨l.map String.toList, by unfold ListsText Coffe.withContributions; rw [Function.update_self, List.map_map]; rfl⟩
      · unfold ListsText
        rw [key s e]
        exact H.texts s hs
    flags := fun s hs => by rw [ki s (by rintro rfl; simp at hs)]; exact H.flags s hs
    type := by rw [ki _ (by decide)]; exact H.type
    method := by rw [ki _ (by decide)]; exact H.method
    covariance_method := by rw [ki _ (by decide)]; exact H.covariance_method
    derivatives := by
      rw [ki _ (by decide), ki _ (by decide), ki _ (by decide), ki _ (by decide)]; exact H.derivatives
    window := by rw [ki _ (by decide)]; exact H.window
    no_class := by rw [ki _ (by decide)]; exact H.no_class
    no_file := by rw [ks _ (by decide)]; exact H.no_file
    spectrum := H.spectrum
    redshifts := by
      rw [key _ (by decide)]
      simp only [kr "z_mean" _ (by decide)]
      exact H.redshifts
    separations := by
      rw [kf _ (by decide), kf _ (by decide), ki _ (by decide), kf _ (by decide)]; exact H.separations
    covariance := by
      simp only [kr "density1" _ (by decide), kr "density2" _ (by decide), kr "fsky" _ (by decide), kr "z_mean" _ (by decide),
        kr "deltaz" _ (by decide), kr "pixelsize" _ (by decide)]
      exact H.covariance
    covariance_average := by
      simp only [kr "density1" _ (by decide), kr "density2" _ (by decide), kr "fsky" _ (by decide), kr "zmin" _ (by decide),
        kr "zmax" _ (by decide)]
      exact H.covariance_average }

/-- **C39 fails**: a file that asks for the multipoles of an integrated potential term at two mean redshifts is accepted, even if
it gives a width for each of them, and the calculation of the integrals then reads past the end of the list of widths. -/
theorem C39_widths_false (chi : ℝ → ℝ) : ∃ c p, coffe_parser_init wEnv wRun c = .ok p ∧ p.output_type = MULTIPOLES ∧
    ListsReal c "deltaz" [1, 1] ∧ p.z_mean = [1, 2] ∧ p.divergent = true ∧
      renormalization_range .MULTIPOLES chi p.z_mean p.deltaz p.zmax = .error .oob := by
  have H := (wConf_complete 2
    [("z_mean", wIntList [1, 2]), ("deltaz", wIntList [1, 1]), ("multipoles", wIntList [0]), ("separations_sampling", wIntOne 5)]
    (by simp) (fun _ => .inr ⟨[1, 2], ⟨_, rfl, by simp [Scalar.toFloat]⟩, by simp⟩) (fun _ => ⟨by decide, by decide⟩)
    ⟨0, 0, 0, rfl, rfl, rfl, by decide⟩ (by decide) (by decide)).withContributions ["g4"]
  obtain ⟨p, hp⟩ := C39_accepts (R := wRun) H
  have F := C39_faithful hp
  have ht : p.output_type = 2 := (Option.some.inj (H.type ▸ F.output_type)).symm
  have hz : p.z_mean = [1, 2] := F.z_mean (.inr (.inl ht)) _ ⟨_, rfl, by simp [Scalar.toFloat]⟩
  have hne : p.output_type ≠ COVARIANCE_MULTIPOLES := by rw [ht]; decide
  obtain ⟨hd, hv⟩ := parser_widths hp hne
  have hc : p.contrib = Contrib.listed ["g4".toList] := F.contributions _ (by
    unfold ListsText withContributions; rw [Function.update_self]; rfl)
  refine ⟨_, p, hp, ht, ⟨_, rfl, by simp [Scalar.toFloat]⟩, hz, hv.2 ?_, ?_⟩
  · rw [hc]
    simp [Contrib.listed]
  · exact range_oob (Or.inr rfl) (by rw [hz, hd]; simp)

end Coffe
