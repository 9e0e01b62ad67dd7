import Verif.Spec.MultipoleExchange
import Verif.Props.Exchange
import Verif.Proofs.Legendre

/-!
# C69: exchanging the populations multiplies the multipole `l` by `(-1)^l`
-/

namespace Coffe
open Classical

theorem legWeight_neg (l : ℕ) (x : ℝ) : legWeight l (-x) = (-1) ^ l * legWeight l x := by
  unfold legWeight
  split_ifs with h
  · simp [h]
  · exact legP_neg x l

theorem double_exchange' (par : Par) (bg : Bg) (I : Ints) (z mu r x1 x2 : ℝ) (hI : I.Symmetric par bg r)
    (hf : par.correlation_contrib.len = true → ¬ (par.flatsky_nonlocal = true ∧ par.output_type ≠ .MULTIPOLES)) :
    functions_double_integrated par.swap bg.swap I z (-mu) r x2 x1 = functions_double_integrated par bg I z mu r x1 x2 := by
  simp only [functions_double_integrated]
  rw [DoubleEnv.of_swap _ _ _ _ _ _ _ _ hI.apart (fun a b => hI.close a z mu x1 x2 b)]
  simp only [double_result, swap_double_g4_g4, swap_double_g5_g5, swap_double_g4_len,
    swap_double_g5_len, swap_double_g4_g5]
  rw [swap_double_len_len _ _ _ _ hf]

/-- **C69** (partial: without Doppler-lensing unless the magnification biases are one constant and the Doppler amplitudes
agree, and without the density-lensing of a spectrum from CLASS): exchanging the two populations multiplies the multipole
`l`, also the redshift averaged one, by `(-1)^l`.  The quadrature is homogeneous and has the symmetries of the cube. -/
theorem C69_exchange_partial (Q : Quad) (hQ : Q.Symmetric) (hH : Q.Homogeneous) (par : Par) (bg : Bg) (I : Ints) (z zmin zmax sep mu : ℝ) (l : ℕ)
    (out : OutputType) (ho : out = .MULTIPOLES ∨ out = .AVERAGE_MULTIPOLES) (hI : I.Symmetric par bg sep)
    (hb : (par.b_derivative = true ∨ par.b_tilde_derivative = true) → par.galaxy_bias1 = par.galaxy_bias2)
    (hd1 : par.correlation_contrib.d1 = true → par.correlation_contrib.len = true →
      (∀ z, bg.G1 z = bg.G2 z) ∧ ∀ z z', par.magnification_bias1 z = par.magnification_bias2 z')
    (hclass : par.correlation_contrib.den = true → par.correlation_contrib.len = true → par.pk_type = .COFFE_PK_LINEAR)
    (hf : par.correlation_contrib.len = true → ¬ (par.flatsky_nonlocal = true ∧ par.output_type ≠ .MULTIPOLES)) :
    signal_value Q par.swap bg.swap I z zmin zmax sep mu l out = (-1) ^ l * signal_value Q par bg I z zmin zmax sep mu l out := by
  have m : ∀ x : ℝ, 2 * (1 - x) - 1 = -(2 * x - 1) := fun x => by ring
  have n1 : ∀ z x, functions_nonintegrated par.swap bg.swap I z (-x) sep = functions_nonintegrated par bg I z x sep :=
    fun z x => C08_nonintegrated_exchange par bg I z x sep hI.apart fun h => by rw [hb h]
  have n2 : ∀ z x t, functions_single_integrated par.swap bg.swap I z (-x) sep t = functions_single_integrated par bg I z x sep t :=
    fun z x t => C09_single_exchange_partial par bg I z x sep t hd1 fun a b => Or.inl (hclass a b)
  have n3 : ∀ z x t t', functions_double_integrated par.swap bg.swap I z (-x) sep t' t = functions_double_integrated par bg I z x sep t t' :=
    fun z x t t' => double_exchange' par bg I z x sep t t' hI hf
  have odd0 : ∀ x : ℝ, (l % 2 ≠ 0 → x = 0) → x = (-1) ^ l * x := by
    intro x h
    by_cases hl : l % 2 = 0
    · rw [(Nat.even_iff.2 hl).neg_one_pow, one_mul]
    · rw [h hl, mul_zero]
  have aw : ∀ z, average_weight par.swap bg.swap z = average_weight par bg z := fun _ => rfl
  have az : ∀ t, average_z bg.swap zmin zmax sep t = average_z bg zmin zmax sep t := fun _ => rfl
  unfold signal_value coffe_integrate
  rw [mul_add, mul_add]
  congr 1
  · congr 1
    · dsimp only
      split_ifs
      · rcases ho with rfl | rfl
        · simp only [integrate_non]
          rw [← hQ.one]
          have : (fun x => multipoles_nonintegrated_integrand par.swap bg.swap I z sep l (1 - x))
              = fun x => (-1) ^ l * multipoles_nonintegrated_integrand par bg I z sep l x := by
            funext x
            simp only [multipoles_nonintegrated_integrand, m, n1, legWeight_neg]
            ring
          rw [this, hH.one]
          ring
        · simp only [integrate_non]
          rw [← hQ.reverse 2 1 (by norm_num)]
          have : (fun v => average_nonintegrated_integrand par.swap bg.swap I zmin zmax sep l (Function.update v 1 (1 - v 1)))
              = fun v => (-1) ^ l * average_nonintegrated_integrand par bg I zmin zmax sep l v := by
            funext v
            simp only [average_nonintegrated_integrand, Function.update_self, Function.update_of_ne (show (0 : ℕ) ≠ 1 by decide), m, n1, legWeight_neg, aw, az]
            ring
          rw [this, hH.multi]
          ring
      · simp
    · dsimp only
      split_ifs
      · rcases ho with rfl | rfl
        · simp only [integrate_single]
          rw [mul_add]
          congr 1
          · rw [show single_flat_gate par.swap = single_flat_gate par from rfl]
            refine (Eq.trans ?_ (odd0 _ fun hl => ?_))
            · simp only [C09_flatsky_den_len_multipoles]
            · have : flatsky_den_len_multipoles par bg I z sep l = 0 := by
                unfold flatsky_den_len_multipoles
                simp [hl]
              simp only [this, mul_zero, ite_self]
          · rw [show single_multi_gate par.swap = single_multi_gate par from rfl]
            split_ifs
            · rw [← hQ.reverse 2 0 (by norm_num)]
              have : (fun v => multipoles_single_integrated_integrand par.swap bg.swap I z sep l (Function.update v 0 (1 - v 0)))
                  = fun v => (-1) ^ l * multipoles_single_integrated_integrand par bg I z sep l v := by
                funext v
                simp only [multipoles_single_integrated_integrand, Function.update_self, Function.update_of_ne (show (1 : ℕ) ≠ 0 by decide), m, n2, legWeight_neg]
                ring
              rw [this, hH.multi]
              ring
            · simp
        · simp only [integrate_single]
          rw [← hQ.reverse 3 1 (by norm_num)]
          have : (fun v => average_single_integrated_integrand par.swap bg.swap I zmin zmax sep l (Function.update v 1 (1 - v 1)))
              = fun v => (-1) ^ l * average_single_integrated_integrand par bg I zmin zmax sep l v := by
            funext v
            simp only [average_single_integrated_integrand, Function.update_self, Function.update_of_ne (show (0 : ℕ) ≠ 1 by decide),
              Function.update_of_ne (show (2 : ℕ) ≠ 1 by decide), m, n2, legWeight_neg, aw, az]
            ring
          rw [this, hH.multi]
          ring
      · simp
  · dsimp only
    split_ifs
    · rcases ho with rfl | rfl
      · simp only [integrate_double]
        rw [mul_add]
        congr 1
        · rw [show double_flat_gate par.swap l = double_flat_gate par l from rfl]
          refine (Eq.trans ?_ (odd0 _ fun hl => ?_))
          · simp only [C10_flatsky_len_len_multipoles]
          · rw [if_neg]
            simp [double_flat_gate, hl]
        · rw [show double_multi_gate par.swap = double_multi_gate par from rfl]
          split_ifs
          · rw [← hQ.reverse 3 0 (by norm_num), ← hQ.exchange 3 1 2 (by norm_num) (by norm_num)]
            have : (fun v => (fun v => multipoles_double_integrated_integrand par.swap bg.swap I z sep l (Function.update v 0 (1 - v 0))) (v ∘ Equiv.swap 1 2))
                = fun v => (-1) ^ l * multipoles_double_integrated_integrand par bg I z sep l v := by
              funext v
              simp only [multipoles_double_integrated_integrand, Function.update_self, Function.update_of_ne (show (1 : ℕ) ≠ 0 by decide),
                Function.update_of_ne (show (2 : ℕ) ≠ 0 by decide), Function.comp, Equiv.swap_apply_left, Equiv.swap_apply_right,
                Equiv.swap_apply_of_ne_of_ne (show (0 : ℕ) ≠ 1 by decide) (show (0 : ℕ) ≠ 2 by decide), m, n3, legWeight_neg]
              ring
            rw [this, hH.multi]
            ring
          · simp
      · simp only [integrate_double]
        rw [← hQ.reverse 4 1 (by norm_num), ← hQ.exchange 4 2 3 (by norm_num) (by norm_num)]
        have : (fun v => (fun v => average_double_integrated_integrand par.swap bg.swap I zmin zmax sep l (Function.update v 1 (1 - v 1))) (v ∘ Equiv.swap 2 3))
            = fun v => (-1) ^ l * average_double_integrated_integrand par bg I zmin zmax sep l v := by
          funext v
          simp only [average_double_integrated_integrand, Function.update_self, Function.update_of_ne (show (0 : ℕ) ≠ 1 by decide),
            Function.update_of_ne (show (2 : ℕ) ≠ 1 by decide), Function.update_of_ne (show (3 : ℕ) ≠ 1 by decide), Function.comp,
            Equiv.swap_apply_left, Equiv.swap_apply_right,
            Equiv.swap_apply_of_ne_of_ne (show (0 : ℕ) ≠ 2 by decide) (show (0 : ℕ) ≠ 3 by decide),
            Equiv.swap_apply_of_ne_of_ne (show (1 : ℕ) ≠ 2 by decide) (show (1 : ℕ) ≠ 3 by decide), m, n3, legWeight_neg, aw, az]
          ring
        rw [this, hH.multi]
        ring
    · simp

/-- **C69** (partial: as above): the odd multipoles of one population vanish. -/
theorem C69_odd_partial (Q : Quad) (hQ : Q.Symmetric) (hH : Q.Homogeneous) (par : Par) (bg : Bg) (I : Ints) (z zmin zmax sep mu : ℝ) (l : ℕ) (hl : l % 2 = 1)
    (out : OutputType) (ho : out = .MULTIPOLES ∨ out = .AVERAGE_MULTIPOLES) (hI : I.Symmetric par bg sep) (hs : SamePopulation par bg)
    (hd1 : par.correlation_contrib.d1 = true → par.correlation_contrib.len = true → ∀ z z', par.magnification_bias1 z = par.magnification_bias1 z')
    (hclass : par.correlation_contrib.den = true → par.correlation_contrib.len = true → par.pk_type = .COFFE_PK_LINEAR)
    (hf : par.correlation_contrib.len = true → ¬ (par.flatsky_nonlocal = true ∧ par.output_type ≠ .MULTIPOLES)) :
    signal_value Q par bg I z zmin zmax sep mu l out = 0 := by
  have h := C69_exchange_partial Q hQ hH par bg I z zmin zmax sep mu l out ho hI (fun _ => hs.1)
    (fun a b => ⟨fun z => by rw [hs.2.2.2], fun z z' => by rw [← hs.2.1]; exact hd1 a b z z'⟩) hclass hf
  have e1 : par.swap = par := by
    obtain ⟨a, b, c, -⟩ := hs
    cases par
    simp only at a b c
    subst a b c
    rfl
  have e2 : bg.swap = bg := by
    have a := hs.2.2.2
    cases bg
    simp only at a
    subst a
    rfl
  rw [e1, e2, (Nat.odd_iff.2 hl).neg_one_pow] at h
  linarith

/-! ## A symmetric quadrature rule -/

/-- Three equidistant nodes on each axis, all with the same weight. -/
noncomputable def gridNode (c : Fin 3) : ℝ := (c : ℝ) / 2

noncomputable def gridPoint (n : ℕ) (c : Fin n → Fin 3) (i : ℕ) : ℝ := if h : i < n then gridNode (c ⟨i, h⟩) else 0

noncomputable def gridQuad : Quad where
  one f := (∑ c : Fin 3, f (gridNode c)) / 3
  multi n f := (∑ c : Fin n → Fin 3, f (gridPoint n c)) / 3 ^ n

theorem gridNode_rev (c : Fin 3) : gridNode c.rev = 1 - gridNode c := by
  fin_cases c <;> norm_num [gridNode, Fin.rev]

theorem gridQuad_symmetric : gridQuad.Symmetric := by
  refine ⟨fun f => ?_, fun n i hi f => ?_, fun n i j hi hj f => ?_⟩
  · simp only [gridQuad]
    congr 1
    exact Fintype.sum_equiv Fin.revPerm _ _ fun c => by rw [Fin.revPerm_apply, gridNode_rev]
  · simp only [gridQuad]
    congr 1
    refine Fintype.sum_equiv ⟨fun c => Function.update c ⟨i, hi⟩ (c ⟨i, hi⟩).rev, fun c => Function.update c ⟨i, hi⟩ (c ⟨i, hi⟩).rev,
      fun c => by simp, fun c => by simp⟩ _ _ fun c => ?_
    congr 1
    funext k
    simp only [Equiv.coe_fn_mk, gridPoint]
    by_cases hk : k = i
    · subst hk
      simp [hi, gridNode_rev]
    · rw [Function.update_of_ne hk]
      unfold gridPoint
      split_ifs with h
      · rw [Function.update_of_ne (by simpa [Fin.ext_iff] using hk)]
      · rfl
  · simp only [gridQuad]
    congr 1
    refine Fintype.sum_equiv ((Equiv.swap (⟨i, hi⟩ : Fin n) ⟨j, hj⟩).arrowCongr (Equiv.refl _)) _ _ fun c => ?_
    congr 1
    funext k
    simp only [gridPoint, Function.comp, Equiv.arrowCongr_apply, Equiv.coe_refl, id, Equiv.symm_swap]
    by_cases hk : k < n
    · have hk' : Equiv.swap i j k < n := by
        rw [Equiv.swap_apply_def]; split_ifs <;> omega
      rw [dif_pos hk, dif_pos hk']
      congr 2
      rw [Fin.ext_iff]
      show Equiv.swap i j k = _
      rw [Equiv.swap_apply_def, Equiv.swap_apply_def]
      simp only [Fin.ext_iff]
      split_ifs <;> rfl
    · rw [dif_neg hk, Equiv.swap_apply_of_ne_of_ne (by omega) (by omega), dif_neg hk]

theorem gridQuad_homogeneous : gridQuad.Homogeneous := by
  refine ⟨fun c f => ?_, fun n c f => ?_⟩ <;>
  · simp only [gridQuad, ← Finset.mul_sum]
    ring

/-- Density, redshift-space distortions, Doppler and lensing of one population with a constant magnification bias, all hypotheses. -/
example : let par : Par := { wPar with correlation_contrib := { Contrib.none with den := true, rsd := true, d1 := true, len := true }, galaxy_bias2 := wPar.galaxy_bias1 }
    let bg : Bg := { wBg with G2 := wBg.G1 }
    gridQuad.Symmetric ∧ gridQuad.Homogeneous ∧ Ints.Symmetric (fun _ => wConst 1) par bg 2 ∧ SamePopulation par bg ∧
      (∀ z z', par.magnification_bias1 z = par.magnification_bias1 z') ∧ par.pk_type = .COFFE_PK_LINEAR ∧ par.flatsky_nonlocal = false :=
  ⟨gridQuad_symmetric, gridQuad_homogeneous, ⟨fun _ _ => rfl, fun h => by simp [wPar] at h⟩, ⟨rfl, rfl, rfl, rfl⟩, fun _ _ => rfl, rfl, rfl⟩

/-- **C69** fails for Doppler-lensing with a magnification bias that depends on redshift: the dipole of a single population is not zero
(src/functions.c:2485-2999 evaluates the magnification bias at the redshift of the second galaxy in both halves of the
term). -/
theorem C69_odd_false :
    let par : Par := { wPar with correlation_contrib := { Contrib.none with d1 := true, len := true }, galaxy_bias2 := wPar.galaxy_bias1,
                                 magnification_bias1 := fun z => z, magnification_bias2 := fun z => z }
    let bg : Bg := { wBg with G2 := wBg.G1 }
    let I := wOnly ⟨2, 0, .int, .int⟩
    SamePopulation par bg ∧ I.Symmetric par bg 2 ∧ par.flatsky_local = false ∧ par.flatsky_local_nonlocal = false ∧ par.flatsky_nonlocal = false ∧
      coffe_integrate gridQuad par bg I 5 0 0 2 0 1 .SINGLE_INTEGRATED .MULTIPOLES ≠ 0 := by
  intro par bg I
  refine ⟨⟨rfl, rfl, rfl, rfl⟩, ⟨fun _ _ => by simp [I, wOnly, Ints.I40, wZero], fun h => by simp [par, wPar] at h⟩, rfl, rfl, rfl, ?_⟩
  have hv : ∀ x ∈ ({0, 1 / 2, 1} : Set ℝ), functions_single_integrated par bg I 5 1 2 x = COFFE_H0 ^ 2 * (-280 * (1 - x)) ∧
      functions_single_integrated par bg I 5 (-1) 2 x = COFFE_H0 ^ 2 * (-180 * (1 - x)) := by
    intro x hx
    simp only [Set.mem_insert_iff, Set.mem_singleton_iff] at hx
    constructor <;> rcases hx with rfl | rfl | rfl <;>
    · simp [functions_single_integrated, single_result, SingleEnv.of, par, bg, I, wPar, wBg, wOnly, Contrib.none,
        single_den_len, single_rsd_len, single_d1_len, single_d2_len, single_g1_len, single_g2_len,
        single_g3_len, single_den_g4, single_den_g5, single_rsd_g4, single_rsd_g5, single_d1_g4,
        single_d1_g5, single_d2_g4, single_d2_g5, single_g1_g4, single_g1_g5, single_g2_g4, single_g2_g5,
        single_g3_g4, single_g3_g5, Ints.I11, Ints.I13, Ints.I20, wConst, wZero]
      try norm_num
  have e : coffe_integrate gridQuad par bg I 5 0 0 2 0 1 .SINGLE_INTEGRATED .MULTIPOLES
      = 3 * ((∑ c : Fin 2 → Fin 3, multipoles_single_integrated_integrand par bg I 5 2 1 (gridPoint 2 c)) / 3 ^ 2) := by
    simp [coffe_integrate, single_gate, integrate_single, single_flat_gate, single_multi_gate, par, wPar, Contrib.none, gridQuad]
    norm_num
  have e2 : (∑ c : Fin 2 → Fin 3, multipoles_single_integrated_integrand par bg I 5 2 1 (gridPoint 2 c))
      = ∑ c : Fin 3 × Fin 3, functions_single_integrated par bg I 5 (2 * gridNode c.1 - 1) 2 (gridNode c.2) * (2 * gridNode c.1 - 1) := by
    refine Fintype.sum_equiv (finTwoArrowEquiv (Fin 3)) _ _ fun c => ?_
    simp [multipoles_single_integrated_integrand, gridPoint, legWeight, legP]
  rw [e, e2, Fintype.sum_prod_type]
  simp only [Fin.sum_univ_three]
  have g0 : gridNode 0 = 0 := by norm_num [gridNode]
  have g1 : gridNode 1 = 1 / 2 := by norm_num [gridNode]
  have g2 : gridNode 2 = 1 := by norm_num [gridNode]
  have f0 : (2 * 0 - 1 : ℝ) = -1 := by norm_num
  have f1 : (2 * (1 / 2) - 1 : ℝ) = 0 := by norm_num
  have f2 : (2 * 1 - 1 : ℝ) = 1 := by norm_num
  rw [g0, g1, g2, f0, f1, f2, (hv 0 (by simp)).1, (hv 0 (by simp)).2, (hv (1 / 2) (by simp)).1, (hv (1 / 2) (by simp)).2,
    (hv 1 (by simp)).1, (hv 1 (by simp)).2]
  norm_num [COFFE_H0]

end Coffe
