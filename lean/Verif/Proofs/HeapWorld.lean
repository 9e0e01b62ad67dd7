import Verif.Proofs.HeapPar

/-!
# One call on the structures
-/

namespace Coffe.Mem

variable {α β : Type} {E : HErr → Prop}

theorem t_fit_entry {bg : Background} (hbg : bg.Ok) {bias : Spline} (hb : bias.Ok) (d : ℕ) {F : Multiset ℕ}
    (hF : ∀ i, ∃ G, F = (bg.splines i).blocks + G) (hF' : ∃ G, F = bias.blocks + G) :
    Triple Soft (fit_entry bg bias d) F (fun a P => a.Ok ∧ P = a.blocks + F) := by
  unfold fit_entry
  obtain ⟨G1, h1⟩ := hF .comoving_distance
  obtain ⟨G2, h2⟩ := hF .z_as_chi
  obtain ⟨G3, h3⟩ := hF'
  refine (t_interp (hbg.1 _)).step h1 ?_
  rintro _ _ rfl
  rw [← h1]
  refine (t_interp (hbg.1 _)).step h2 ?_
  rintro _ _ rfl
  rw [← h2]
  refine (t_interp hb).step h3 ?_
  rintro _ _ rfl
  rw [← h3]
  refine t_malloc.step (F := F) (by abel) ?_
  rintro x _ ⟨hx, rfl⟩
  refine t_malloc.step (F := x.blocks + F) (by abel) ?_
  rintro y _ ⟨hy, rfl⟩
  refine t_malloc.step (F := y.blocks + x.blocks + F) (by abel) ?_
  rintro c _ ⟨hc, rfl⟩
  refine (t_free hx).step (F := y.blocks + c.blocks + F) (by abel) ?_
  rintro _ _ rfl
  refine (t_free hy).step (F := c.blocks + F) (by abel) ?_
  rintro _ _ rfl
  refine Triple.pure ⟨hc, ?_⟩
  rw [Arr.blocks, if_neg (Nat.succ_ne_zero d)]
  abel

theorem t_fit_entries {bg : Background} (hbg : bg.Ok) {bias : Spline} (hb : bias.Ok) (d : ℕ) {F : Multiset ℕ}
    (hF : ∀ i, ∃ G, F = (bg.splines i).blocks + G) (hF' : ∃ G, F = bias.blocks + G) : ∀ n,
    Triple Soft (fit_entries bg bias d n) F
      (fun l P => l.length = n ∧ (∀ a ∈ l, a.Ok) ∧ P = sumOver l Arr.blocks + F)
  | 0 => Triple.pure ⟨rfl, by simp, by simp [sumOver_nil]⟩
  | n + 1 => by
    unfold fit_entries
    refine (t_fit_entry hbg hb d hF hF').step (F := 0) (by simp) ?_
    rintro a _ ⟨ha, rfl⟩
    refine (t_fit_entries hbg hb d hF hF' n).step (F := a.blocks) (by abel) ?_
    rintro l _ ⟨hn, hl, rfl⟩
    refine Triple.pure ⟨by simp [hn], ?_, by rw [sumOver_cons]; abel⟩
    intro b hb
    rcases List.mem_cons.1 hb with rfl | hb
    · exact ha
    · exact hl b hb

theorem t_get_fit {bg : Background} (hbg : bg.Ok) {bias : Spline} (hb : bias.Ok) (d n : ℕ) {F : Multiset ℕ}
    (hF : ∀ i, ∃ G, F = (bg.splines i).blocks + G) (hF' : ∃ G, F = bias.blocks + G) :
    Triple Soft (coffe_get_bias_coefficients bg bias d n) F (fun f P => f.Ok ∧ P = f.blocks + F) := by
  unfold coffe_get_bias_coefficients
  refine t_malloc'.step (F := F) (by simp) ?_
  rintro p _ ⟨hp, h0, rfl⟩
  refine (t_fit_entries hbg hb d hF hF' n).step (F := p.blocks) (by abel) ?_
  rintro l _ ⟨hn, hl, rfl⟩
  exact Triple.pure ⟨⟨hp, hn.ge, fun _ => h0, hl⟩, by unfold Fit.blocks; dsimp only; abel⟩

theorem t_init_fits {bg : Background} (hbg : bg.Ok) {par : Par} (hpar : par.Ok) (d n : ℕ) {F : Multiset ℕ}
    (hF : ∀ i, ∃ G, F = (bg.splines i).blocks + G) (hF' : ∀ i, ∃ G, F = (par.splines i).blocks + G)
    (hz : ∃ G, F = (par.lists .z_mean).array.blocks + G)
    (hs : (par.lists .sep).size ≠ 0 → ∃ G, F = (par.lists .sep).array.blocks + G) :
    ∀ (l : List ParFit) (_ : l.Nodup) (s : ParFit → Fit) (_ : ∀ i, (s i).Ok),
    Triple Soft (init_fits bg par d n l s) F
      (fun s' P => (∀ i, (s' i).Ok) ∧ (∀ i, i ∉ l → s' i = s i) ∧ P = sumOver l (fun i => (s' i).blocks) + F)
  | [], _, s, h => Triple.pure ⟨h, by simp, by simp [sumOver_nil]⟩
  | i :: is, hn, s, h => by
    obtain ⟨hi, hn⟩ := List.nodup_cons.1 hn
    unfold init_fits
    obtain ⟨G1, h1⟩ := hz
    refine (t_use (hpar.lists .z_mean)).step h1 ?_
    rintro _ _ ⟨rfl, -⟩
    rw [← h1]
    refine Triple.step (Q0 := fun _ P => P = 0 ∧ (par.lists .sep).size ≠ 0) (pre0 := 0) (F := F) ?_ (by simp) ?_
    · intro R hp hl
      by_cases h0 : (par.lists .sep).size = 0
      · exact Or.inl ⟨.empty, Or.inr rfl, by rw [cif, if_pos h0]; rfl⟩
      · exact Or.inr ⟨(), hp, 0, by rw [cif, if_neg h0]; rfl, hl, rfl, h0⟩
    rintro _ _ ⟨rfl, h0⟩
    obtain ⟨G2, h2⟩ := hs h0
    refine (t_use (hpar.lists .sep)).step (F := G2) (by rw [h2]; abel) ?_
    rintro _ _ ⟨rfl, -⟩
    rw [← h2]
    refine (t_get_fit hbg (hpar.splines i.source) d n hF (hF' _)).step (F := 0) (by simp) ?_
    rintro f _ ⟨hf, rfl⟩
    refine (t_init_fits hbg hpar d n hF hF' ⟨G1, h1⟩ hs is hn _ (ok_update h hf)).frame (F := f.blocks) (by abel) ?_
    rintro s' _ ⟨g1, g2, rfl⟩
    have hsi : s' i = f := by rw [g2 i hi]; simp
    refine ⟨g1, ?_, by rw [sumOver_cons, hsi]; abel⟩
    intro j hj
    have hj1 : j ≠ i := fun h => hj (by simp [h])
    rw [g2 j fun h => hj (by simp [h]), Function.update_of_ne hj1]

theorem par_has_spline (par : Par) (i : ParSpline) : ∃ G, par.blocks = (par.splines i).blocks + G := by
  obtain ⟨G, hG⟩ := sumOver_split (ps_mem i) (fun i => (par.splines i).blocks)
  obtain ⟨F, hF, -⟩ := par_splines par par.splines
  exact ⟨G + F, by rw [hF, hG]; abel⟩

theorem par_has_class (par : Par) (i : ClassName) : ∃ G, par.blocks = (par.classes i).blocks + G := by
  obtain ⟨G, hG⟩ := sumOver_split (cl_mem i) (fun i => (par.classes i).blocks)
  rw [par_rest, hG]
  exact ⟨sumOver [ParSpline.power_spectrum, .power_spectrum_norm]
      (fun i => (par.splines i).blocks) + par.power_spectrum2d.blocks + par.power_spectrum2d_norm.blocks
      + G + par.rest, by abel⟩

theorem par_has_list (par : Par) (i : ParList) (hi : i ≠ .zmin) (h0 : (par.lists i).size ≠ 0) :
    ∃ G, par.blocks = (par.lists i).array.blocks + G := by
  obtain ⟨F, hF, -⟩ := par_list_focus par i
  rw [if_neg (fun h => hi h.1), Arr.blocks, if_neg h0] at hF
  exact ⟨F, hF⟩

theorem bg_has (bg : Background) (i : BgName) : ∃ G, bg.blocks = (bg.splines i).blocks + G :=
  sumOver_split (bg_mem i) _

theorem add_has {A B X : Multiset ℕ} (h : ∃ G, A = X + G) : ∃ G, A + B = X + G := by
  obtain ⟨G, rfl⟩ := h
  exact ⟨G + B, by abel⟩

theorem add_has' {A B X : Multiset ℕ} (h : ∃ G, B = X + G) : ∃ G, A + B = X + G := by
  obtain ⟨G, rfl⟩ := h
  exact ⟨A + G, by abel⟩

theorem par_fits (par : Par) (f : ParFit → Fit) :
    ({ par with fits := f } : Par).blocks + sumOver ParFit.all (fun i => (par.fits i).blocks)
      = par.blocks + sumOver ParFit.all fun i => (f i).blocks := by
  unfold Par.blocks
  dsimp only
  abel

theorem t_background_init (nonlocal : Bool) (d : ℕ) {par : Par} (hpar : par.Ok) {bg : Background} (hbg : bg.Ok) :
    Triple Soft (coffe_background_init nonlocal d par bg) (par.blocks + bg.blocks)
      (fun r P => r.1.Ok ∧ r.1.flag = par.flag ∧ r.2.Ok ∧ ∃ L, P = r.1.blocks + r.2.blocks + L ∧ (nonlocal = false → L = 0 ∧ r.1.fits = par.fits)) := by
  unfold coffe_background_init
  refine (t_background_free hbg).step (F := par.blocks) (by abel) ?_
  rintro _ _ ⟨rfl, rfl⟩
  refine (t_scratch 24).step (F := par.blocks) (by abel) ?_
  rintro _ _ rfl
  refine (t_init_splines BgName.all bg_nodup _).step (F := par.blocks) (by abel) ?_
  rintro s _ ⟨rfl, hs, -⟩
  have hok : (⟨true, s⟩ : Background).Ok := ⟨fun i => hs i (bg_mem i), by simp⟩
  by_cases hc : nonlocal = true ∧ (par.lists .z_mean).size ≠ 0
  · dsimp only
    rw [if_pos hc]
    refine (t_init_fits hok hpar d _ (F := (⟨true, s⟩ : Background).blocks + par.blocks) (fun i => add_has (bg_has _ i))
      (fun i => add_has' (par_has_spline par i)) (add_has' (par_has_list par _ (by decide) hc.2))
      (fun h => add_has' (par_has_list par _ (by decide) h)) ParFit.all pf_nodup par.fits hpar.fits).step (F := 0)
      (by simp [Background.blocks]) ?_
    rintro f _ ⟨hf, -, rfl⟩
    refine Triple.pure ⟨{ hpar with fits := hf }, rfl, hok, sumOver ParFit.all (fun i => (par.fits i).blocks), ?_,
      by simp [hc.1]⟩
    dsimp only
    have := par_fits par f
    calc _ = (par.blocks + sumOver ParFit.all fun i => (f i).blocks) + (⟨true, s⟩ : Background).blocks := by abel
      _ = _ := by rw [← this]; abel
  · dsimp only
    rw [if_neg hc]
    exact Triple.pure ⟨hpar, rfl, hok, 0, by unfold Background.blocks; dsimp only; abel, fun _ => ⟨rfl, rfl⟩⟩

/-- Every allowed call keeps the structures in order and leaves foreign blocks alone. -/
theorem t_exec {w : World} (hw : w.Ok) (o : Op) (ho : Allowed w.par.flag o) : Triple Soft (exec w o) w.blocks
    (fun w' P => w'.Ok ∧ (w'.par.flag = flagAfter o w.par.flag ∧ (Tidy o → NoFits w.par → NoFits w'.par)) ∧
      ∃ L, P = w'.blocks + L ∧ (Tidy o → L = 0)) := by
  obtain ⟨hp, hb, hi, h1, h2, h3, h4, h5⟩ := hw
  unfold World.blocks
  set A := w.par.blocks
  set B := w.bg.blocks
  set C := w.integral.blocks
  set D1 := w.cf.blocks
  set D2 := w.mp.blocks
  set D3 := w.ramp.blocks
  set D4 := w.cov_mp.blocks
  set D5 := w.cov_ramp.blocks
  cases o with
  | par_default =>
    refine (t_par_default w.par).step (F := A + B + C + D1 + D2 + D3 + D4 + D5) (by abel) ?_
    rintro p _ ⟨hp', rfl, hfl, -⟩
    exact Triple.pure ⟨⟨hp', hb, hi, h1, h2, h3, h4, h5⟩, ⟨hfl, fun h => h.elim⟩, A, by abel, fun h => h.elim⟩
  | par_free =>
    refine (t_parameters_free hp).step (F := B + C + D1 + D2 + D3 + D4 + D5) (by abel) ?_
    rintro p _ ⟨hp', hfl, rfl⟩
    exact Triple.pure ⟨⟨hp', hb, hi, h1, h2, h3, h4, h5⟩, ⟨hfl.1, fun _ => hfl.2.1⟩, 0, by abel, fun _ => rfl⟩
  | set_list i n =>
    refine (t_set_list hp i n (by rintro rfl; exact ho)).step (F := B + C + D1 + D2 + D3 + D4 + D5) (by abel) ?_
    rintro p _ ⟨hp', hfl, L, rfl, hL⟩
    exact Triple.pure ⟨⟨hp', hb, hi, h1, h2, h3, h4, h5⟩, ⟨hfl.1, fun _ h0 i => by rw [hfl.2]; exact h0 i⟩, L, by abel, hL⟩
  | parse_list i n =>
    refine (t_parse_list hp i n).step (F := B + C + D1 + D2 + D3 + D4 + D5) (by abel) ?_
    rintro p _ ⟨hp', hfl, L, rfl⟩
    exact Triple.pure ⟨⟨hp', hb, hi, h1, h2, h3, h4, h5⟩, ⟨hfl.1, fun _ h0 i => by rw [hfl.2]; exact h0 i⟩, L, by abel, fun h => h.elim⟩
  | parse_type_bg n =>
    refine (t_parse_type_bg hp n).step (F := B + C + D1 + D2 + D3 + D4 + D5) (by abel) ?_
    rintro p _ ⟨hp', hfl, L, rfl⟩
    exact Triple.pure ⟨⟨hp', hb, hi, h1, h2, h3, h4, h5⟩, ⟨hfl.1, fun _ h0 i => by rw [hfl.2]; exact h0 i⟩, L, by abel, fun h => h.elim⟩
  | set_bias i =>
    refine (t_set_bias hp i).step (F := B + C + D1 + D2 + D3 + D4 + D5) (by abel) ?_
    rintro p _ ⟨hp', hfl, L, rfl⟩
    exact Triple.pure ⟨⟨hp', hb, hi, h1, h2, h3, h4, h5⟩, ⟨hfl.1, fun _ h0 i => by rw [hfl.2]; exact h0 i⟩, L, by abel, fun h => h.elim⟩
  | set_power_spectrum =>
    refine (t_set_power_spectrum hp).step (F := B + C + D1 + D2 + D3 + D4 + D5) (by abel) ?_
    rintro p _ ⟨hp', hfl, rfl⟩
    refine (t_integrals_free hi).step (F := p.blocks + B + D1 + D2 + D3 + D4 + D5) (by abel) ?_
    rintro _ _ ⟨rfl, rfl⟩
    exact Triple.pure ⟨⟨hp', hb, ok_int0, h1, h2, h3, h4, h5⟩, ⟨hfl.1, fun _ h0 i => by rw [hfl.2]; exact h0 i⟩, 0, by rw [blocks_int0]; abel, fun _ => rfl⟩
  | free_power_spectrum =>
    refine (t_free_power_spectrum hp).step (F := B + C + D1 + D2 + D3 + D4 + D5) (by abel) ?_
    rintro p _ ⟨hp', hfl, rfl⟩
    exact Triple.pure ⟨⟨hp', hb, hi, h1, h2, h3, h4, h5⟩, ⟨hfl.1, fun _ h0 i => by rw [hfl.2]; exact h0 i⟩, 0, by abel, fun _ => rfl⟩
  | run_class nl =>
    refine (t_run_class hp nl).step (F := B + C + D1 + D2 + D3 + D4 + D5) (by abel) ?_
    rintro p _ ⟨hp', hfl, L, rfl⟩
    exact Triple.pure ⟨⟨hp', hb, hi, h1, h2, h3, h4, h5⟩, ⟨hfl.1, fun _ h0 i => by rw [hfl.2]; exact h0 i⟩, L, by abel, fun h => h.elim⟩
  | bg_init nonlocal d =>
    refine (t_background_init nonlocal d hp hb).step (F := C + D1 + D2 + D3 + D4 + D5) (by abel) ?_
    rintro ⟨p, b⟩ _ ⟨hp', hfl, hb', L, rfl, hL⟩
    exact Triple.pure ⟨⟨hp', hb', hi, h1, h2, h3, h4, h5⟩, ⟨hfl, fun h h0 i => by rw [(hL h).2]; exact h0 i⟩, L, by abel,
      fun h => (hL h).1⟩
  | bg_free =>
    refine (t_background_free hb).step (F := A + C + D1 + D2 + D3 + D4 + D5) (by abel) ?_
    rintro _ _ ⟨rfl, rfl⟩
    refine Triple.pure ⟨⟨hp, ⟨fun _ => ok_new, fun _ _ => rfl⟩, hi, h1, h2, h3, h4, h5⟩, ⟨rfl, fun _ h => h⟩, 0, ?_, fun _ => rfl⟩
    dsimp only
    rw [Background.blocks, sumOver_zero (l := BgName.all) fun _ _ => blocks_new]
    abel
  | int_init cfg =>
    refine (t_integrals_init cfg hp hb (F := A + B) ⟨add_has (par_has_spline _ _), fun j => add_has (par_has_class _ j),
      add_has' (bg_has _ _)⟩ hi).step (F := D1 + D2 + D3 + D4 + D5) (by abel) ?_
    rintro I _ ⟨hI, L, rfl, hL⟩
    exact Triple.pure ⟨⟨hp, hb, hI, h1, h2, h3, h4, h5⟩, ⟨rfl, fun _ h => h⟩, L, by abel, hL⟩
  | int_free =>
    refine (t_integrals_free hi).step (F := A + B + D1 + D2 + D3 + D4 + D5) (by abel) ?_
    rintro _ _ ⟨rfl, rfl⟩
    exact Triple.pure ⟨⟨hp, hb, ok_int0, h1, h2, h3, h4, h5⟩, ⟨rfl, fun _ h => h⟩, 0, by rw [blocks_int0]; abel, fun _ => rfl⟩
  | cf_init n =>
    refine (t_result_init h1 n).step (F := A + B + C + D2 + D3 + D4 + D5) (by abel) ?_
    rintro r _ ⟨hr, L, rfl, hL⟩
    exact Triple.pure ⟨⟨hp, hb, hi, hr, h2, h3, h4, h5⟩, ⟨rfl, fun _ h => h⟩, L, by abel, hL⟩
  | cf_free =>
    refine (t_result_free h1).step (F := A + B + C + D2 + D3 + D4 + D5) (by abel) ?_
    rintro r _ ⟨rfl, rfl⟩
    exact Triple.pure ⟨⟨hp, hb, hi, ok_arr0, h2, h3, h4, h5⟩, ⟨rfl, fun _ h => h⟩, 0, by rw [blocks_arr0]; abel, fun _ => rfl⟩
  | mp_init n =>
    refine (t_result_init h2 n).step (F := A + B + C + D1 + D3 + D4 + D5) (by abel) ?_
    rintro r _ ⟨hr, L, rfl, hL⟩
    exact Triple.pure ⟨⟨hp, hb, hi, h1, hr, h3, h4, h5⟩, ⟨rfl, fun _ h => h⟩, L, by abel, hL⟩
  | mp_free =>
    refine (t_result_free h2).step (F := A + B + C + D1 + D3 + D4 + D5) (by abel) ?_
    rintro r _ ⟨rfl, rfl⟩
    exact Triple.pure ⟨⟨hp, hb, hi, h1, ok_arr0, h3, h4, h5⟩, ⟨rfl, fun _ h => h⟩, 0, by rw [blocks_arr0]; abel, fun _ => rfl⟩
  | ramp_init n =>
    refine (t_result_init h3 n).step (F := A + B + C + D1 + D2 + D4 + D5) (by abel) ?_
    rintro r _ ⟨hr, L, rfl, hL⟩
    exact Triple.pure ⟨⟨hp, hb, hi, h1, h2, hr, h4, h5⟩, ⟨rfl, fun _ h => h⟩, L, by abel, hL⟩
  | ramp_free =>
    refine (t_result_free h3).step (F := A + B + C + D1 + D2 + D4 + D5) (by abel) ?_
    rintro r _ ⟨rfl, rfl⟩
    exact Triple.pure ⟨⟨hp, hb, hi, h1, h2, ok_arr0, h4, h5⟩, ⟨rfl, fun _ h => h⟩, 0, by rw [blocks_arr0]; abel, fun _ => rfl⟩
  | cov_init rq av n =>
    refine (t_cov_init h4 h5 rq av n).step (F := A + B + C + D1 + D2 + D3) (by abel) ?_
    rintro ⟨a, b⟩ _ ⟨ha, hb', L, rfl, hL⟩
    exact Triple.pure ⟨⟨hp, hb, hi, h1, h2, h3, ha, hb'⟩, ⟨rfl, fun _ h => h⟩, L, by abel, hL⟩
  | cov_mp_free =>
    refine (t_result_free h4).step (F := A + B + C + D1 + D2 + D3 + D5) (by abel) ?_
    rintro r _ ⟨rfl, rfl⟩
    exact Triple.pure ⟨⟨hp, hb, hi, h1, h2, h3, ok_arr0, h5⟩, ⟨rfl, fun _ h => h⟩, 0, by rw [blocks_arr0]; abel, fun _ => rfl⟩
  | cov_ramp_free =>
    refine (t_result_free h5).step (F := A + B + C + D1 + D2 + D3 + D4) (by abel) ?_
    rintro r _ ⟨rfl, rfl⟩
    exact Triple.pure ⟨⟨hp, hb, hi, h1, h2, h3, h4, ok_arr0⟩, ⟨rfl, fun _ h => h⟩, 0, by rw [blocks_arr0]; abel, fun _ => rfl⟩
  | bg_use i =>
    obtain ⟨G, hG⟩ := bg_has w.bg i
    refine (t_interp (hb.1 i)).step (F := G + A + C + D1 + D2 + D3 + D4 + D5)
      (by rw [show B = _ from hG]; abel) ?_
    rintro _ _ rfl
    refine Triple.pure ⟨⟨hp, hb, hi, h1, h2, h3, h4, h5⟩, ⟨rfl, fun _ h => h⟩, 0, ?_, fun _ => rfl⟩
    rw [hG]; abel
  | par_use i =>
    obtain ⟨G, hG⟩ := par_has_spline w.par i
    refine (t_interp (hp.splines i)).step (F := G + B + C + D1 + D2 + D3 + D4 + D5)
      (by rw [show A = _ from hG]; abel) ?_
    rintro _ _ rfl
    refine Triple.pure ⟨⟨hp, hb, hi, h1, h2, h3, h4, h5⟩, ⟨rfl, fun _ h => h⟩, 0, ?_, fun _ => rfl⟩
    rw [hG]; abel

end Coffe.Mem
