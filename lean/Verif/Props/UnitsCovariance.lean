import Verif.Spec.UnitsCovariance
import Verif.Props.Covariance
import Verif.Props.Fftlog
import Mathlib.Tactic.FieldSimp
import Mathlib.Tactic.Ring

/-!
# C77: the covariance does not depend on the unit of length
-/

namespace Coffe
open Classical

theorem unit_volume {c : ℝ} (a b : ℝ) : covariance_volume_no_4pi (c * a) (c * b) = c ^ 3 * covariance_volume_no_4pi a b := by
  unfold covariance_volume_no_4pi; ring

theorem unit_integral_bessel (E : CovNum) {c : ℝ} (hc : 0 < c) (l : ℕ) (k x : ℝ) :
    integral_bessel (E.unit c) l (k / c) (c * x) = c ^ 3 * integral_bessel E l k x := by
  have e : k / c * (c * x) = k * x := by field_simp
  have e2 : integral_bessel_unit (E.unit c) l (k * x) = integral_bessel_unit E l (k * x) := rfl
  unfold integral_bessel
  rw [e, e2, div_pow, div_div_eq_mul_div]
  ring

theorem unit_windowed_bessel (E : CovNum) {c : ℝ} (hc : 0 < c) (l : ℕ) (k s d : ℝ) :
    windowed_bessel (E.unit c) (c * s) l (k / c) (c * s) (c * d) = windowed_bessel E s l k s d := by
  have e0 : c * d = 0 ↔ d = 0 := by simp [hc.ne']
  have e : c * s * (k / c) = s * k := by field_simp
  have e1 : c * s + c * d / 2 = c * (s + d / 2) := by ring
  have e2 : c * s - c * d / 2 = c * (s - d / 2) := by ring
  have e3 : (E.unit c).bessel = E.bessel := rfl
  unfold windowed_bessel
  rw [e1, e2, unit_volume, unit_integral_bessel E hc, unit_integral_bessel E hc, e, e3]
  by_cases h : d = 0
  · rw [if_pos (e0.2 h), if_pos h]
  · rw [if_neg (fun h' => h (e0.1 h')), if_neg h]
    have : (c ^ 3 : ℝ) ≠ 0 := by positivity
    rw [← mul_sub, one_div, mul_inv, one_div]
    field_simp

theorem unit_getD (l : List ℝ) {c : ℝ} (k : ℕ) : (l.map (c * ·)).getD k 0 = c * l.getD k 0 := by
  simp only [List.getD_eq_getElem?_getD, List.getElem?_map]
  cases l[k]? <;> simp

theorem unit_getD_div (l : List ℝ) {c : ℝ} (k : ℕ) : (l.map (· / c)).getD k 0 = l.getD k 0 / c := by
  simp only [List.getD_eq_getElem?_getD, List.getElem?_map]
  cases l[k]? <;> simp

/-- The integrals of two Bessel functions: a pure number for the spectrum, a volume for its square. -/
theorem unit_integral (E : CovNum) (hE : E.Linear) {c : ℝ} (hc : 0 < c) (r : ℕ) (P P' : ℝ → ℝ) (w : ℝ)
    (hP : ∀ q, P' (q / c) = w * c ^ 3 * P q) (s1 s2 d1 d2 : ℝ) (l1 l2 : ℕ) :
    covariance_integral (E.unit c) r P' (c * s1) (c * s2) (c * d1) (c * d2) l1 l2
      = w * covariance_integral E r P s1 s2 d1 d2 l1 l2 := by
  show 2 * (E.quadK r (fun q => covariance_integrand (E.unit c) P' (c * s1) (c * s2) (c * d1) (c * d2) l1 l2 (q / c)) / c) / Real.pi = _
  unfold covariance_integral
  rw [show (fun q => covariance_integrand (E.unit c) P' (c * s1) (c * s2) (c * d1) (c * d2) l1 l2 (q / c))
    = fun q => (w * c) * covariance_integrand E P s1 s2 d1 d2 l1 l2 q from funext fun q => by
      simp only [covariance_integrand, unit_windowed_bessel E hc, hP]
      field_simp, hE.quadK]
  field_simp

theorem unit_rawTable (p : CovPar) (E : CovNum) (hE : E.Linear) {c : ℝ} (hc : 0 < c) (power : ℕ) (hp : power = 1 ∨ power = 2)
    (r i j m n : ℕ) :
    rawTable (p.unit c) (E.unit c) power r i j m n = c ^ (3 * (power - 1)) * rawTable p E power r i j m n := by
  have hd : (if (p.unit c).covariance_window then (p.unit c).pixelsize.getD r 0 else 0)
      = c * (if p.covariance_window then p.pixelsize.getD r 0 else 0) := by
    have : (p.unit c).pixelsize.getD r 0 = c * p.pixelsize.getD r 0 := unit_getD _ _
    rw [this]
    show (if p.covariance_window then _ else _) = _
    split_ifs <;> simp
  have hs : ∀ m, (p.unit c).sep.getD m 0 = c * p.sep.getD m 0 := fun m => unit_getD _ _
  have hcc : ∀ q : ℝ, c * (q / c) = q := fun q => by field_simp
  have hx : ∀ s : ℝ, c * s / c = s := fun s => by field_simp
  have hm : (p.unit c).multipole_values = p.multipole_values := rfl
  have hf : (p.unit c).fftlog = p.fftlog := rfl
  unfold rawTable
  rw [hf]
  by_cases h : p.fftlog = true
  · rw [if_pos h, if_pos h]
    unfold rawFFT
    rw [hs, hs, hm, show (E.unit c).fft = fun power l1 l2 x y => c ^ (3 * (power - 1)) * E.fft power l1 l2 (x / c) (y / c) from rfl]
    dsimp only
    rw [hx, hx]
    ring
  · rw [if_neg h, if_neg h]
    unfold rawStandard
    rw [hs, hs, hm, hd]
    rcases hp with rfl | rfl
    · rw [if_pos rfl, if_pos rfl, if_pos rfl, unit_integral E hE hc r (E.pk r) _ 1 (fun q => by
        show c ^ 3 * E.pk r (c * (q / c)) = _
        rw [hcc, one_mul])]
      ring
    · simp only [show ¬ ((2 : ℕ) = 1) by norm_num, if_false]
      rw [unit_integral E hE hc r (E.pk2 r) _ (c ^ 3) (fun q => by
        show (c ^ 3) ^ 2 * E.pk2 r (c * (q / c)) = _
        rw [hcc]; ring)]
      ring

theorem unit_tableCell (p : CovPar) (E : CovNum) (hE : E.Linear) {c : ℝ} (hc : 0 < c) (power : ℕ) (hp : power = 1 ∨ power = 2)
    (k i m j n : ℕ) :
    tableCell (p.unit c) (E.unit c) power k i m j n = c ^ (3 * (power - 1)) * tableCell p E power k i m j n := by
  have : (p.unit c).spectrum k = p.spectrum k := rfl
  unfold tableCell
  rw [this]
  split_ifs <;> exact unit_rawTable p E hE hc power hp _ _ _ _ _

/-- The volume of a bin. -/
theorem unit_unitVolume (p : CovPar) (E : CovNum) (hE : E.Linear) (bg : Bg) {c : ℝ} (hc : 0 < c) (k : ℕ) :
    (p.unit c).unitVolume (E.unit c) (bg.unit c) k = c ^ 3 * p.unitVolume E bg k := by
  show (if p.average then
    4 * Real.pi / E.quadZ (p.zmin.getD k 0) (p.zmax.getD k 0)
      (fun z => 1 / (bg.conformal_Hz z / c) / (c * bg.comoving_distance z) ^ 2 / (1 + z)) / (E.H0 * (p.h / c)) ^ 2
  else
    4 * Real.pi * ((c * bg.comoving_distance (p.z_mean.getD k 0 + p.deltaz.getD k 0)) ^ 3
      - (c * bg.comoving_distance (p.z_mean.getD k 0 - p.deltaz.getD k 0)) ^ 3) / 3) = _
  rw [CovPar.unitVolume]
  split_ifs
  · rw [show (fun z => 1 / (bg.conformal_Hz z / c) / (c * bg.comoving_distance z) ^ 2 / (1 + z))
      = fun z => (1 / c) * (1 / bg.conformal_Hz z / bg.comoving_distance z ^ 2 / (1 + z)) from funext fun z => by
        rw [mul_pow, one_div_div]
        simp only [div_eq_mul_inv, mul_inv]
        field_simp, hE.quadZ]
    generalize E.quadZ _ _ _ = q
    rw [show E.H0 * (p.h / c) = (E.H0 * p.h) / c by ring]
    generalize E.H0 * p.h = u
    simp only [div_eq_mul_inv, mul_inv, mul_pow, inv_pow, inv_inv, one_mul]
    ring
  · ring

theorem unit_kron (p : CovPar) (a b c d f n1 n2 u : ℝ) (l1 l2 : ℕ) :
    coeff_mixed p a b c d f (n1 / u) (n2 / u) l1 l2 = u * coeff_mixed p a b c d f n1 n2 l1 l2 := by
  simp only [coeff_mixed, List.map_cons, List.map_nil, List.sum_cons, List.sum_nil, div_div_eq_mul_div]
  ring

theorem unit_weight (w : Bool) {c : ℝ} (hc : 0 < c) (s t d : ℝ) :
    (if w then 1 / covariance_volume_no_4pi (c * s - c * d / 2) (c * s + c * d / 2) else 1 / (c * t) / (c * s) / (c * d))
      = (if w then 1 / covariance_volume_no_4pi (s - d / 2) (s + d / 2) else 1 / t / s / d) / c ^ 3 := by
  have e1 : c * s + c * d / 2 = c * (s + d / 2) := by ring
  have e2 : c * s - c * d / 2 = c * (s - d / 2) := by ring
  rw [e1, e2, unit_volume]
  split_ifs <;> simp only [div_eq_mul_inv, mul_inv, one_mul] <;> ring

/-- One value. -/
theorem unit_cell (p : CovPar) (E : CovNum) (hE : E.Linear) (bg : Bg) {c : ℝ} (hc : 0 < c) (k i m j n : ℕ) :
    cellFormula (p.unit c) (E.unit c) (bg.unit c) k i m j n = cellFormula p E bg k i m j n := by
  have h1 : (p.unit c).pixelsize.getD k 0 = c * p.pixelsize.getD k 0 := unit_getD _ _
  have h2 : (p.unit c).density1.getD k 0 = p.density1.getD k 0 / c ^ 3 := unit_getD_div _ _
  have h3 : (p.unit c).density2.getD k 0 = p.density2.getD k 0 / c ^ 3 := unit_getD_div _ _
  have hs : ∀ m, (p.unit c).sep.getD m 0 = c * p.sep.getD m 0 := fun m => unit_getD _ _
  have hc3 : (c ^ 3 : ℝ) ≠ 0 := by positivity
  have hm : ∀ a b c' d f n1 n2 : ℝ, ∀ l1 l2, coeff_mixed (p.unit c) a b c' d f n1 n2 l1 l2 = coeff_mixed p a b c' d f n1 n2 l1 l2 :=
    fun _ _ _ _ _ _ _ _ _ => rfl
  unfold cellFormula
  simp only [unit_unitVolume p E hE bg hc, unit_tableCell p E hE hc 1 (Or.inl rfl), unit_tableCell p E hE hc 2 (Or.inr rfl), h1, h2, h3,
    hs, hm, unit_kron]
  refine congrArg₂ (· + ·) (congrArg₂ (· + ·) ?_ ?_) ?_
  · show (if p.covariance_poisson then (2 * (p.multipole_values.getD i 0 : ℝ) + 1) / 4 / Real.pi
        * kronecker_delta (p.multipole_values.getD i 0) (p.multipole_values.getD j 0) * kronecker_delta m n
        * (kronecker_delta p.pop1 p.pop3 * kronecker_delta p.pop2 p.pop4
          + sign (p.multipole_values.getD j 0) * kronecker_delta p.pop1 p.pop4 * kronecker_delta p.pop2 p.pop3)
        * (if p.covariance_window then 1 / covariance_volume_no_4pi (c * p.sep.getD m 0 - c * p.pixelsize.getD k 0 / 2)
              (c * p.sep.getD m 0 + c * p.pixelsize.getD k 0 / 2)
            else 1 / (c * p.sep.getD n 0) / (c * p.sep.getD m 0) / (c * p.pixelsize.getD k 0))
        / (p.density1.getD k 0 / c ^ 3) / (p.density2.getD k 0 / c ^ 3) / (p.fsky.getD k 0 * (c ^ 3 * p.unitVolume E bg k)) else 0) = _
    rw [unit_weight _ hc]
    refine if_congr Iff.rfl ?_ rfl
    exact unit_p _ _ _ _ _ _ hc3
  · refine if_congr Iff.rfl ?_ rfl
    exact unit_m _ _ _ _ _ hc3
  · refine if_congr Iff.rfl ?_ rfl
    exact unit_c _ _ _ _ _ hc3
where
  unit_p (a w n1 n2 f v : ℝ) {u : ℝ} (hu : u ≠ 0) : a * (w / u) / (n1 / u) / (n2 / u) / (f * (u * v)) = a * w / n1 / n2 / (f * v) := by
    simp only [div_eq_mul_inv, mul_inv, inv_inv]
    field_simp
  unit_m (a t m f v : ℝ) {u : ℝ} (hu : u ≠ 0) : a * (c ^ (3 * (1 - 1)) * t) * (u * m) / (f * (u * v)) = a * t * m / (f * v) := by
    simp only [div_eq_mul_inv, mul_inv]
    field_simp
    simp
  unit_c (a t m f v : ℝ) (hu : c ^ 3 ≠ 0) : a * (c ^ (3 * (2 - 1)) * t) * m / (f * (c ^ 3 * v)) = a * t * m / (f * v) := by
    rw [show 3 * (2 - 1) = 3 by norm_num]
    simp only [div_eq_mul_inv, mul_inv]
    field_simp

/-- **C77, covariance.**  With separations and pixel sizes multiplied by `c`, number densities divided by its cube, the Hubble
constant divided by it, and background and spectra in the new unit, the computation gives the same rows (their
separations in the new unit) with the same values: for mean redshifts and redshift bins, all choices of parts, with and
without average over pixels. -/
theorem C77_covariance (p : CovPar) (E : CovNum) (hE : E.Linear) (bg : Bg) (hp : p.Matching) (hz : p.MeanFits) {c : ℝ} (hc : 0 < c) :
    ∃ C V C' V', covariance_init p E bg = .ok (C, V) ∧
      covariance_init (p.unit c) (E.unit c) (bg.unit c) = .ok (C', V') ∧
      ∀ q < p.bins * p.multipole_values.length * p.sep.length * p.multipole_values.length * p.sep.length,
        ∃ x v, C.val q = some x ∧ V.val q = some v ∧ C'.val q = some (x.unit c) ∧ V'.val q = some v := by
  have hl : (p.unit c).sep.length = p.sep.length := List.length_map _
  have hp' : (p.unit c).Matching := ⟨hp.pos, (List.length_map _).trans hp.density1, (List.length_map _).trans hp.density2, hp.fsky,
    (List.length_map _).trans hp.pixelsize, hp.zmax, hp.deltaz, hp.pops⟩
  obtain ⟨C, V, e, -, -, h⟩ := covariance_init_ok p E bg hp hz
  obtain ⟨C', V', e', -, -, h'⟩ := covariance_init_ok (p.unit c) (E.unit c) (bg.unit c) hp' hz
  refine ⟨C, V, C', V', e, e', fun q hq => ?_⟩
  obtain ⟨⟨k, i, m, j, n⟩, ⟨⟨⟨hk, hi, hm, hj, hn⟩, rfl⟩, -⟩⟩ := C24_complete _ _ _ q hq
  have a := h k hk i hi m hm j hj n hn
  have b := h' k hk i hi m (hl ▸ hm) j hj n (hl ▸ hn)
  rw [hl] at b
  refine ⟨_, _, a.1, a.2, ?_, ?_⟩
  · refine b.1.trans ?_
    have hs : ∀ m, (p.unit c).sep.getD m 0 = c * p.sep.getD m 0 := fun m => unit_getD _ _
    congr 1
    unfold CovPar.coords CovCoord.unit
    rw [hs, hs]
    rfl
  · refine b.2.trans ?_
    rw [unit_cell p E hE bg hc]

/-! ## The values of the FFTLog method -/

theorem unit_kGrid {c : ℝ} (hc : 0 < c) (kmin kmax : ℝ) (N i : ℕ) : kGrid (kmin / c) (kmax / c) N i = kGrid kmin kmax N i / c := by
  unfold kGrid
  rw [div_div_div_cancel_right₀ hc.ne']
  ring

theorem unit_diagonal (P : ℝ → ℝ) {c : ℝ} (hc : 0 < c) (power : ℕ) (hp : power = 1 ∨ power = 2) (kmin kmax : ℝ) (N : ℕ) (q : ℕ × ℕ) :
    diagonalOf (spectrumUnit P c) power (kmin / c) (kmax / c) N q = c ^ (3 * (power - 1)) * diagonalOf P power kmin kmax N q := by
  have hcc : ∀ q : ℝ, c * (q / c) = q := fun q => by field_simp
  unfold diagonalOf
  rw [unit_kGrid hc, div_div_div_cancel_right₀ hc.ne', spectrumUnit, hcc]
  split_ifs
  · rw [Real.rpow_natCast, Real.rpow_natCast]
    generalize kGrid kmin kmax N q.1 = k
    rcases hp with rfl | rfl
    · rw [show c ^ (3 * (1 - 1)) = (1 : ℝ) by simp, one_mul]
      congr 1
      field_simp
    · rw [show 3 * (2 - 1) = 3 by norm_num, ← mul_div_assoc]
      congr 1
      field_simp
  · simp

theorem unit_kernelOf (l nu : ℝ) {c : ℝ} (hc : 0 < c) (k : ℕ → ℝ) (N i : ℕ) :
    kernelOf l nu (fun j => k j / c) N i = kernelOf l nu k N i ∧ rowKernel l nu (fun j => k j / c) N i = rowKernel l nu k N i := by
  have e : etaOf (fun j => k j / c) N = etaOf k N := by
    funext i
    simp only [etaOf]
    rw [div_div_div_cancel_right₀ hc.ne']
  have e2 : k 0 / c * (1 / (k (N - 1) / c)) = k 0 * (1 / k (N - 1)) := by
    rw [one_div_div, mul_one_div]
    field_simp
  constructor
  · simp only [kernelOf]
    rw [e, e2]
  · simp only [rowKernel, kernelOf]
    rw [e, e2]

/-- The transform on the grid. -/
theorem unit_nodeOf (P : ℝ → ℝ) {c : ℝ} (hc : 0 < c) (power : ℕ) (hp : power = 1 ∨ power = 2) (l1 l2 : ℝ) {kmin kmax : ℝ} (h0 : 0 < kmin)
    (h1 : kmin < kmax) (N a b : ℕ) :
    nodeOf (spectrumUnit P c) power l1 l2 (kmin / c) (kmax / c) N a b = c ^ (3 * (power - 1)) * nodeOf P power l1 l2 kmin kmax N a b := by
  have hk : kGrid (kmin / c) (kmax / c) N = fun j => kGrid kmin kmax N j / c := funext fun i => unit_kGrid hc _ _ _ _
  have hpos : ∀ i, 0 ≤ kGrid kmin kmax N i := fun i => (kGrid_pos h0 h1 N i).le
  have hd : diagonalOf (spectrumUnit P c) power (kmin / c) (kmax / c) N = fun q => c ^ (3 * (power - 1)) * diagonalOf P power kmin kmax N q :=
    funext fun q => unit_diagonal P hc power hp kmin kmax N q
  unfold nodeOf
  rw [hk, hd]
  generalize hK : kGrid kmin kmax N = k at *
  generalize diagonalOf P power kmin kmax N = d
  generalize c ^ (3 * (power - 1)) = w
  obtain ⟨nu, hnu⟩ : ∃ nu : ℝ, nu = 1.01 := ⟨_, rfl⟩
  rw [← hnu]
  have hcn : (0 : ℝ) < c ^ nu := Real.rpow_pos_of_pos hc _
  have hs : ∀ i j, spectrumOf (fun j => k j / c) (fun j => k j / c) (fun q => w * d q) N N ⟨l1, l2, nu, nu, 0.25⟩ i j
      = ((w * (c ^ nu) ^ 2 : ℝ) : ℂ) * spectrumOf k k d N N ⟨l1, l2, nu, nu, 0.25⟩ i j := by
    intro i j
    unfold spectrumOf
    rw [(unit_kernelOf l2 nu hc k N j).1, (unit_kernelOf l1 nu hc k N i).2]
    have hf : ∀ a b, w * d (a, b) / (k a / c) ^ nu / (k b / c) ^ nu = w * (c ^ nu) ^ 2 * (d (a, b) / k a ^ nu / k b ^ nu) := by
      intro a b
      rw [Real.div_rpow (hpos a) hc.le, Real.div_rpow (hpos b) hc.le]
      simp only [div_eq_mul_inv, mul_inv, inv_inv]
      ring
    have hr : r2c_2d N N (fun a b => w * d (a, b) / (k a / c) ^ nu / (k b / c) ^ nu) i j
        = ((w * (c ^ nu) ^ 2 : ℝ) : ℂ) * r2c_2d N N (fun a b => d (a, b) / k a ^ nu / k b ^ nu) i j := by
      unfold r2c_2d
      rw [Finset.mul_sum]
      refine Finset.sum_congr rfl fun a _ => ?_
      rw [Finset.mul_sum]
      refine Finset.sum_congr rfl fun b _ => ?_
      beta_reduce
      rw [hf]
      push_cast
      ring
    dsimp only
    rw [hr, mul_assoc, mul_assoc, map_mul, Complex.conj_ofReal, mul_assoc]
  have hi : c2r_2d N N (spectrumOf (fun j => k j / c) (fun j => k j / c) (fun q => w * d q) N N ⟨l1, l2, nu, nu, 0.25⟩) a b
      = w * (c ^ nu) ^ 2 * c2r_2d N N (spectrumOf k k d N N ⟨l1, l2, nu, nu, 0.25⟩) a b := by
    unfold c2r_2d
    rw [Finset.mul_sum]
    refine Finset.sum_congr rfl fun j _ => ?_
    simp only [hs, mul_assoc (((w * (c ^ nu) ^ 2 : ℝ) : ℂ))]
    rw [← Finset.mul_sum, mul_assoc (((w * (c ^ nu) ^ 2 : ℝ) : ℂ)), Complex.re_ofReal_mul]
    ring
  unfold twoBesselOf
  rw [hi]
  dsimp only
  have hg : ∀ i, (1 / (k i / c)) ^ nu = c ^ nu * (1 / k i) ^ nu := by
    intro i
    rw [show 1 / (k i / c) = c * (1 / k i) by rw [one_div_div, mul_one_div], Real.mul_rpow hc.le (one_div_nonneg.2 (hpos i))]
  rw [hg, hg]
  generalize c2r_2d _ _ _ _ _ = A
  generalize (1 / k _) ^ nu = B
  generalize (1 / k _) ^ nu = C
  simp only [div_eq_mul_inv, mul_inv]
  field_simp

/-- **C77, FFTLog.**  If the FFTLog values of the covariance are those of the code for a spectrum between two wavenumbers, those in
the new unit are the values of the code for the spectrum in the new unit between the new wavenumbers. -/
theorem C77_fftlog (E : CovNum) (s : Spline2d) (hs : s.Scales) (P : ℝ → ℝ) (N : ℕ) (hN : N % 2 = 0) (h8 : 8 ≤ N) {kmin kmax : ℝ}
    (h0 : 0 < kmin) (h1 : kmin < kmax) {c : ℝ} (hc : 0 < c) (power : ℕ) (hp : power = 1 ∨ power = 2) (l1 l2 : ℕ) (x y : ℝ)
    (h : ∃ b, covariance_integrate_fftlog s P power l1 l2 N (Buf.of (· < 2) fun i => if i = 0 then x / c else y / c) 2 kmin kmax
        (cmalloc (2 * 2)) = .ok b ∧ b.val (2 * 1 + 0) = some (E.fft power l1 l2 (x / c) (y / c))) :
    ∃ b, covariance_integrate_fftlog s (spectrumUnit P c) power l1 l2 N (Buf.of (· < 2) fun i => if i = 0 then x else y) 2
        (kmin / c) (kmax / c) (cmalloc (2 * 2)) = .ok b ∧ b.val (2 * 1 + 0) = some ((E.unit c).fft power l1 l2 x y) := by
  obtain ⟨b, e, hb⟩ := h
  obtain ⟨z, hz, X, hX, Y, hY, b', e', -, hb'⟩ := fftlog_ok s P power l1 l2 N hN h8 kmin kmax
    (stores_of (· < 2) fun i => if i = 0 then x / c else y / c) (result := cmalloc (2 * 2)) rfl
  rw [e] at e'
  cases e'
  have v := hb' 0 (by omega) 1 (by omega)
  rw [hb] at v
  have v := Option.some.inj v
  simp only [if_true, one_ne_zero, if_false] at v
  obtain ⟨z', hz', X', hX', Y', hY', b'', e'', -, hb''⟩ := fftlog_ok s (spectrumUnit P c) power l1 l2 N hN h8 (kmin / c) (kmax / c)
    (stores_of (· < 2) fun i => if i = 0 then x else y) (result := cmalloc (2 * 2)) rfl
  refine ⟨b'', e'', ?_⟩
  rw [hb'' 0 (by omega) 1 (by omega)]
  simp only [if_true, one_ne_zero, if_false]
  show some _ = some (c ^ (3 * (power - 1)) * E.fft power l1 l2 (x / c) (y / c))
  have hr : ∀ i, rGrid (kmin / c) (kmax / c) N i = c * rGrid kmin kmax N i := by
    intro i
    unfold rGrid
    rw [unit_kGrid hc, one_div_div, mul_one_div]
  have := hs X Y z X' Y' z' N c (c ^ (3 * (power - 1))) (x / c) (y / c) hc (fun i hi => by rw [hX i hi, hX' i hi, hr])
    (fun i hi => by rw [hY i hi, hY' i hi, hr]) (fun i hi j hj => by rw [hz i hi j hj, hz' i hi j hj, unit_nodeOf P hc power hp l1 l2 h0 h1])
  rw [v, ← this, mul_div_cancel₀ _ hc.ne', mul_div_cancel₀ _ hc.ne']

/-- The surface through the nodes follows a change of unit. -/
theorem nodeSpline_scales : nodeSpline.Scales := by
  intro x y z x' y' z' N c w u v hc hx hy hz
  have e : (fun q : ℕ × ℕ => q.1 < N ∧ q.2 < N ∧ x' q.1 = c * u ∧ y' q.2 = c * v) = fun q => q.1 < N ∧ q.2 < N ∧ x q.1 = u ∧ y q.2 = v := by
    funext q
    refine propext ⟨fun ⟨a, b, h1, h2⟩ => ⟨a, b, ?_, ?_⟩, fun ⟨a, b, h1, h2⟩ => ⟨a, b, ?_, ?_⟩⟩
    · rw [hx _ a] at h1; exact mul_left_cancel₀ hc.ne' h1
    · rw [hy _ b] at h2; exact mul_left_cancel₀ hc.ne' h2
    · rw [hx _ a, h1]
    · rw [hy _ b, h2]
  have g : ∀ (p : ℕ × ℕ → Prop), (p = fun q => q.1 < N ∧ q.2 < N ∧ x q.1 = u ∧ y q.2 = v) →
      (if h : ∃ q, p q then z' (h.choose.2 * N + h.choose.1) else 0) = w * nodeSpline x y z N u v := by
    rintro p rfl
    unfold nodeSpline
    by_cases h : ∃ q : ℕ × ℕ, q.1 < N ∧ q.2 < N ∧ x q.1 = u ∧ y q.2 = v
    · rw [dif_pos h, dif_pos h]
      exact hz _ h.choose_spec.1 _ h.choose_spec.2.1
    · rw [dif_neg h, dif_neg h, mul_zero]
  exact g _ e

/-- The hypotheses hold for two redshifts, two multipoles and two separations and quadratures of one point each. -/
example : covGood.Matching ∧ covGood.MeanFits ∧
    (⟨fun _ f => f 1, fun _ _ f => f 1, fun _ _ => 1, fun _ => 0, fun _ _ => 1, fun _ _ => 1, fun _ _ _ _ _ => 0, 1⟩ : CovNum).Linear := by
  refine ⟨?_, Or.inr rfl, ⟨fun _ _ _ => rfl, fun _ _ _ _ => rfl⟩⟩
  constructor <;> simp [covGood, covWitness, CovPar.bins]

end Coffe
