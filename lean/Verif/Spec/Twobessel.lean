import Verif.Model.C.Twobessel

/-!
# Specification of the two-dimensional FFTLog
-/

namespace Coffe
open Classical Finset

/-- All cells of the array are written, with these values. -/
def Buf.Stores {ι α : Type} (b : Buf ι α) (D : ι → Prop) (g : ι → α) : Prop :=
  b.dom = D ∧ ∀ q, D q → b.val q = some (g q)

/-- The factor `distance` cells from the highest frequency, if the `cut` highest frequencies are damped. -/
noncomputable def taper (cut distance : ℕ) : ℝ :=
  if distance ≤ cut then (distance : ℝ) / cut - Real.sin (2 * Real.pi * (distance / cut)) / (2 * Real.pi) else 1

/-- The factor that `c_window_2d` puts on row `i` of `2 * half` rows.  Row `i ≤ half` holds frequency `i`, row
`i > half` holds frequency `-(2 * half - i)`. -/
noncomputable def rowTaper (cut half i : ℕ) : ℝ := if i ≤ half then taper cut (half - i) else taper cut (i - half - 1)

/-- Frequencies of a logarithmic grid. -/
noncomputable def etaOf (k : ℕ → ℝ) (N i : ℕ) : ℝ := 2 * Real.pi / Real.log (k 1 / k 0) / N * i

/-- (k₀ r₀)^(-iη) g(η) at the frequency of cell `i ≤ N / 2`. -/
noncomputable def kernelOf (l nu : ℝ) (k : ℕ → ℝ) (N i : ℕ) : ℂ :=
  ((k 0 * (1 / k (N - 1)) : ℝ) : ℂ) ^ (-Complex.I * etaOf k N i) * g_l l nu (etaOf k N) i

/-- The same for every row `i < N`; rows above `N / 2` hold negative frequencies. -/
noncomputable def rowKernel (l nu : ℝ) (k : ℕ → ℝ) (N i : ℕ) : ℂ :=
  if i ≤ N / 2 then kernelOf l nu k N i
  else ((k 0 * (1 / k (N - 1)) : ℝ) : ℂ) ^ (Complex.I * etaOf k N (N - i)) * (starRingEnd ℂ) (g_l l nu (etaOf k N) (N - i))

/-- The array that is transformed back. -/
noncomputable def spectrumOf (k1 k2 : ℕ → ℝ) (f : ℕ × ℕ → ℝ) (N1 N2 : ℕ) (c : TwoBesselConfig) (i j : ℕ) : ℂ :=
  (starRingEnd ℂ) (r2c_2d N1 N2 (fun a b => f (a, b) / k1 a ^ c.nu1 / k2 b ^ c.nu2) i j
    * (taper ⌊((N2 / 2 : ℕ) : ℝ) * c.c_window_width⌋₊ (N2 / 2 - j) * rowTaper ⌊((N1 / 2 : ℕ) : ℝ) * c.c_window_width⌋₊ (N1 / 2) i : ℝ)
    * (kernelOf c.l2 c.nu2 k2 N2 j * rowKernel c.l1 c.nu1 k1 N1 i))

/-- The result at the separations `1 / k1 (N1 - 1 - a)`, `1 / k2 (N2 - 1 - b)`. -/
noncomputable def twoBesselOf (k1 k2 : ℕ → ℝ) (f : ℕ × ℕ → ℝ) (N1 N2 : ℕ) (c : TwoBesselConfig) (a b : ℕ) : ℝ :=
  c2r_2d N1 N2 (spectrumOf k1 k2 f N1 N2 c) a b * Real.pi
    / (16 * N1 * N2 * (1 / k2 (N2 - 1 - b)) ^ c.nu2 * (1 / k1 (N1 - 1 - a)) ^ c.nu1)

/-- The sampled wavenumbers. -/
noncomputable def kGrid (kmin kmax : ℝ) (N i : ℕ) : ℝ := kmin * (kmax / kmin) ^ ((i : ℝ) / N)

/-- k³ P(k)^power / Δ(log k) on the diagonal. -/
noncomputable def diagonalOf (P : ℝ → ℝ) (power kmin kmax : ℝ) (N : ℕ) (q : ℕ × ℕ) : ℝ :=
  if q.1 = q.2 then kGrid kmin kmax N q.1 ^ 3 * P (kGrid kmin kmax N q.1) ^ power / (Real.log (kmax / kmin) / N) else 0

/-- The transform of the spectrum at the separations number `a` and `b` of the grid `1 / k`. -/
noncomputable def nodeOf (P : ℝ → ℝ) (power l1 l2 kmin kmax : ℝ) (N a b : ℕ) : ℝ :=
  twoBesselOf (kGrid kmin kmax N) (kGrid kmin kmax N) (diagonalOf P power kmin kmax N) N N ⟨l1, l2, 1.01, 1.01, 0.25⟩ a b

/-- A two-dimensional spline through `N × N` values (stored row by row) with increasing abscissae and ordinates
takes the given values at the nodes. -/
def Spline2d.ExactAtNodes (s : Spline2d) : Prop :=
  ∀ (x y z : ℕ → ℝ) (N : ℕ), 4 ≤ N → (∀ i j, i < j → j < N → x i < x j) → (∀ i j, i < j → j < N → y i < y j) →
    ∀ i < N, ∀ j < N, s x y z N (x i) (y j) = z (j * N + i)

end Coffe
