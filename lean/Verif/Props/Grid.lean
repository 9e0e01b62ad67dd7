import Verif.Proofs.Grid
import Verif.Spec.Grid
import Verif.Model.Python.Compute
import Verif.Spec.Witness

/-!
# C21: the output tables
-/

namespace Coffe
open Classical

/-- Every row number below `A * B * C` is the position of exactly one combination, … -/
theorem C21_complete (A B C p : ℕ) (h : p < A * B * C) :
    ∃! t : ℕ × ℕ × ℕ, (t.1 < A ∧ t.2.1 < B ∧ t.2.2 < C) ∧ pos3 B C t.1 t.2.1 t.2.2 = p := by
  have hC : 0 < C := Nat.pos_of_ne_zero (by rintro rfl; simp at h)
  have hB : 0 < B := Nat.pos_of_ne_zero (by rintro rfl; simp at h)
  refine ⟨(p / C / B, p / C % B, p % C), ⟨⟨?_, Nat.mod_lt _ hB, Nat.mod_lt _ hC⟩, ?_⟩, ?_⟩
  · rw [Nat.div_div_eq_div_mul]
    exact Nat.div_lt_of_lt_mul (by rw [mul_comm C B]; calc p < A * B * C := h
      _ = B * C * A := by ring)
  · show (p / C / B * B + p / C % B) * C + p % C = p
    rw [Nat.div_add_mod', Nat.div_add_mod']
  · rintro ⟨i, j, k⟩ ⟨⟨hi, hj, hk⟩, rfl⟩
    have e1 : pos3 B C i j k / C = i * B + j := by
      unfold pos3; rw [mul_comm, Nat.mul_add_div hC, Nat.div_eq_of_lt hk, Nat.add_zero]
    have e2 : pos3 B C i j k % C = k := by
      unfold pos3; rw [mul_comm, Nat.mul_add_mod, Nat.mod_eq_of_lt hk]
    have e3 : (i * B + j) / B = i := by rw [mul_comm, Nat.mul_add_div hB, Nat.div_eq_of_lt hj, Nat.add_zero]
    have e4 : (i * B + j) % B = j := by rw [mul_comm, Nat.mul_add_mod, Nat.mod_eq_of_lt hj]
    simp only [Prod.mk.injEq]
    rw [e1, e2, e3, e4]
    exact ⟨rfl, rfl, rfl⟩

/-- … a combination is inside the table, and the rows are in lexicographic order. -/
theorem C21_lexicographic (A B C i j k i' j' k' : ℕ) (hi : i' < A) (hj : j < B) (hk : k < C) (hj' : j' < B) (hk' : k' < C)
    (h : Before3 i j k i' j' k') : pos3 B C i j k < pos3 B C i' j' k' ∧ pos3 B C i' j' k' < A * B * C := by
  have step : ∀ a b n x y : ℕ, x < n → a < b → a * n + x < b * n + y := by
    intro a b n x y hx hab
    calc a * n + x < a * n + n := by omega
      _ = (a + 1) * n := by ring
      _ ≤ b * n := Nat.mul_le_mul_right n hab
      _ ≤ b * n + y := Nat.le_add_right _ _
  constructor
  · unfold pos3
    rcases h with h | ⟨rfl, h | ⟨rfl, h⟩⟩
    · exact step _ _ _ _ _ hk (step _ _ _ _ _ hj h)
    · exact step _ _ _ _ _ hk (by omega)
    · omega
  · have := step (i' * B + j') (A * B) C k' 0 hk' (by
      have := step i' A B j' 0 hj' hi; omega)
    unfold pos3; omega

theorem table3 {κ : Type} (coords : Buf ℕ κ) (A B C size : ℕ) (hs : size = A * B * C) (c : ℕ → ℕ → ℕ → κ)
    (hd : ∀ p, coords.dom p ↔ p < size)
    (hc : ∀ i < A, ∀ j < B, ∀ k < C, coords.val ((i * B + j) * C + k) = some (c i j k)) (f1 f2 f3 : κ → ℝ) :
    ∃ v1 v2 v3, setLoop coords f1 size (cmalloc size) = .ok v1 ∧ addLoop coords f2 size v1 = .ok v2 ∧
      addLoop coords f3 size v2 = .ok v3 ∧
      IsTable3 coords v3 A B C c fun i j k => f1 (c i j k) + f2 (c i j k) + f3 (c i j k) := by
  by_cases hz : size = 0
  · have nob : ∀ i < A, ∀ j < B, ∀ k < C, False := fun i hi j hj k hk => by
      rw [hz] at hs
      have : 0 < A * B * C := Nat.mul_pos (Nat.mul_pos (by omega) (by omega)) (by omega)
      omega
    refine ⟨cmalloc size, cmalloc size, cmalloc size, ?_, ?_, ?_, by rw [← hs]; exact hd, by rw [← hs]; exact fun p => Iff.rfl,
      fun i hi j hj k hk => (nob i hi j hj k hk).elim⟩ <;>
    · rw [hz]; rfl
  · have hne : Nonempty κ := by
      have h0 : 0 < A * B * C := by omega
      have hC : 0 < C := Nat.pos_of_ne_zero (by rintro rfl; simp at h0)
      have hB : 0 < B := Nat.pos_of_ne_zero (by rintro rfl; simp at h0)
      have hA : 0 < A := Nat.pos_of_ne_zero (by rintro rfl; simp at h0)
      exact ⟨c 0 0 0⟩
    let d : ℕ → κ := fun p => (coords.val p).getD (Classical.choice hne)
    have hh : coords.Holds size d := by
      intro p hp
      obtain ⟨⟨i, j, k⟩, ⟨⟨hi, hj, hk⟩, e⟩, -⟩ := C21_complete A B C p (by omega)
      refine ⟨(hd p).2 hp, ?_⟩
      have := hc i hi j hj k hk
      simp only [pos3] at e
      simp only [d]
      rw [← e, this]; rfl
    obtain ⟨v1, e1, h1⟩ := setLoop_ok coords d f1 size (cmalloc size) hh fun _ => Iff.rfl
    obtain ⟨v2, e2, h2⟩ := addLoop_ok coords d f2 size v1 _ hh h1
    obtain ⟨v3, e3, h3⟩ := addLoop_ok coords d f3 size v2 _ hh h2
    refine ⟨v1, v2, v3, e1, e2, e3, by rw [← hs]; exact hd, by rw [← hs]; exact h3.1, fun i hi j hj k hk => ?_⟩
    have hv := hc i hi j hj k hk
    refine ⟨hv, ?_⟩
    have hp : pos3 B C i j k < size := by
      rw [hs]
      by_cases hA : A = 0
      · omega
      · have step : ∀ a b n x : ℕ, x < n → a < b → a * n + x < b * n := by
          intro a b n x hx hab
          calc a * n + x < a * n + n := by omega
            _ = (a + 1) * n := by ring
            _ ≤ b * n := Nat.mul_le_mul_right n hab
        exact step _ _ _ _ hk (step _ _ _ _ hj hi)
    rw [(h3.2 _ hp).2]
    have : d (pos3 B C i j k) = c i j k := by simp only [d]; unfold pos3; rw [hv]; rfl
    simp only [this]

/-- **C21**, correlation function: the computation succeeds and produces the table of all requested redshifts,
angles and separations with the signal at each of them. -/
theorem C21_corrfunc (Q : Quad) (par : Par) (bg : Bg) (I : Ints) (z_mean mus seps : List ℝ) :
    ∃ C V, corrfunc_init Q par bg I z_mean mus seps = .ok (C, V) ∧
      IsTable3 C V z_mean.length mus.length seps.length
        (fun i j k => ⟨z_mean.getD i 0, mus.getD j 0, seps.getD k 0⟩)
        (fun i j k => signal_value Q par bg I (z_mean.getD i 0) 0 0 (seps.getD k 0) (mus.getD j 0) 0 .CORRFUNC) := by
  obtain ⟨C, e, hd, hc⟩ := grid3 z_mean.length mus.length seps.length
    (fun i j k => (⟨z_mean.getD i 0, mus.getD j 0, seps.getD k 0⟩ : CfCoord))
    (fun i j k s => do
      let z ← ld z_mean i
      let mu ← ld mus j
      let sep ← ld seps k
      push (⟨z, mu, sep⟩ : CfCoord) s)
    (mus.length * z_mean.length * seps.length) (by ring) fun i hi j hj k hk s => by
      simp only [ld_getD 0 hi, ld_getD 0 hj, ld_getD 0 hk]; rfl
  obtain ⟨v1, v2, v3, e1, e2, e3, ht⟩ := table3 C z_mean.length mus.length seps.length _ (by ring) _ hd hc
    (fun c => coffe_integrate Q par bg I c.z 0 0 c.sep c.mu 0 .NONINTEGRATED .CORRFUNC)
    (fun c => coffe_integrate Q par bg I c.z 0 0 c.sep c.mu 0 .SINGLE_INTEGRATED .CORRFUNC)
    (fun c => coffe_integrate Q par bg I c.z 0 0 c.sep c.mu 0 .DOUBLE_INTEGRATED .CORRFUNC)
  refine ⟨C, v3, ?_, ht⟩
  simp only [corrfunc_init, e, bind, Except.bind] at *
  simp only [e1, e2, e3]; rfl

/-- **C21**, multipoles. -/
theorem C21_multipoles (Q : Quad) (par : Par) (bg : Bg) (I : Ints) (z_mean : List ℝ) (ls : List ℕ) (seps : List ℝ) :
    ∃ C V, multipoles_init Q par bg I z_mean ls seps = .ok (C, V) ∧
      IsTable3 C V z_mean.length ls.length seps.length
        (fun i j k => ⟨z_mean.getD i 0, ls.getD j 0, seps.getD k 0⟩)
        (fun i j k => signal_value Q par bg I (z_mean.getD i 0) 0 0 (seps.getD k 0) 0 (ls.getD j 0) .MULTIPOLES) := by
  obtain ⟨C, e, hd, hc⟩ := grid3 z_mean.length ls.length seps.length
    (fun i j k => (⟨z_mean.getD i 0, ls.getD j 0, seps.getD k 0⟩ : MpCoord))
    (fun i j k s => do
      let z ← ld z_mean i
      let l ← ld ls j
      let sep ← ld seps k
      push (⟨z, l, sep⟩ : MpCoord) s)
    (ls.length * z_mean.length * seps.length) (by ring) fun i hi j hj k hk s => by
      simp only [ld_getD 0 hi, ld_getD 0 hj, ld_getD 0 hk]; rfl
  obtain ⟨v1, v2, v3, e1, e2, e3, ht⟩ := table3 C z_mean.length ls.length seps.length _ (by ring) _ hd hc
    (fun c => coffe_integrate Q par bg I c.z 0 0 c.sep 0 c.l .NONINTEGRATED .MULTIPOLES)
    (fun c => coffe_integrate Q par bg I c.z 0 0 c.sep 0 c.l .SINGLE_INTEGRATED .MULTIPOLES)
    (fun c => coffe_integrate Q par bg I c.z 0 0 c.sep 0 c.l .DOUBLE_INTEGRATED .MULTIPOLES)
  refine ⟨C, v3, ?_, ht⟩
  simp only [multipoles_init, e, bind, Except.bind] at *
  simp only [e1, e2, e3]; rfl

/-- **C21**, redshift averaged multipoles: as many upper as lower redshifts (`zmax` is read with the indices of
`zmin`). -/
theorem C21_average_partial (Q : Quad) (par : Par) (bg : Bg) (I : Ints) (zmin zmax : List ℝ) (ls : List ℕ) (seps : List ℝ)
    (hz : zmin.length ≤ zmax.length) :
    ∃ C V, average_multipoles_init Q par bg I zmin zmax ls seps = .ok (C, V) ∧
      IsTable3 C V zmin.length ls.length seps.length
        (fun i j k => ⟨zmin.getD i 0, zmax.getD i 0, ls.getD j 0, seps.getD k 0⟩)
        (fun i j k => signal_value Q par bg I ((zmin.getD i 0 + zmax.getD i 0) / 2) (zmin.getD i 0) (zmax.getD i 0)
          (seps.getD k 0) 0 (ls.getD j 0) .AVERAGE_MULTIPOLES) := by
  obtain ⟨C, e, hd, hc⟩ := grid3 zmin.length ls.length seps.length
    (fun i j k => (⟨zmin.getD i 0, zmax.getD i 0, ls.getD j 0, seps.getD k 0⟩ : AmpCoord))
    (fun i j k s => do
      let z1 ← ld zmin i
      let z2 ← ld zmax i
      let l ← ld ls j
      let sep ← ld seps k
      push (⟨z1, z2, l, sep⟩ : AmpCoord) s)
    (ls.length * zmin.length * seps.length) (by ring) fun i hi j hj k hk s => by
      simp only [ld_getD 0 hi, ld_getD 0 (lt_of_lt_of_le hi hz), ld_getD 0 hj, ld_getD 0 hk]; rfl
  obtain ⟨v1, v2, v3, e1, e2, e3, ht⟩ := table3 C zmin.length ls.length seps.length _ (by ring) _ hd hc
    (fun c => coffe_integrate Q par bg I ((c.z_min + c.z_max) / 2) c.z_min c.z_max c.sep 0 c.l .NONINTEGRATED .AVERAGE_MULTIPOLES)
    (fun c => coffe_integrate Q par bg I ((c.z_min + c.z_max) / 2) c.z_min c.z_max c.sep 0 c.l .SINGLE_INTEGRATED .AVERAGE_MULTIPOLES)
    (fun c => coffe_integrate Q par bg I ((c.z_min + c.z_max) / 2) c.z_min c.z_max c.sep 0 c.l .DOUBLE_INTEGRATED .AVERAGE_MULTIPOLES)
  refine ⟨C, v3, ?_, ht⟩
  simp only [average_multipoles_init, e, bind, Except.bind] at *
  simp only [e1, e2, e3]; rfl

/-- Non-vacuity: a 1 × 2 × 2 table has four rows; the last one belongs to the last angle and separation. -/
example (Q : Quad) (par : Par) (bg : Bg) (I : Ints) :
    ∃ C V, corrfunc_init Q par bg I [1] [0, 1] [10, 20] = .ok (C, V) ∧ (∀ p, C.dom p ↔ p < 4) ∧
      C.val 3 = some ⟨1, 1, 20⟩ ∧ C.val 1 = some ⟨1, 0, 20⟩ := by
  obtain ⟨C, V, e, h1, -, h3⟩ := C21_corrfunc Q par bg I [1] [0, 1] [10, 20]
  exact ⟨C, V, e, h1, (h3 0 (by simp) 1 (by simp) 1 (by simp)).1, (h3 0 (by simp) 0 (by simp) 1 (by simp)).1⟩

/-- **C21 fails** for redshift averaged multipoles when `z_max` is shorter than `z_min` (nothing in the Python
interface prevents it): the code reads past the end of `z_max`. -/
theorem C21_average_false (Q : Quad) (par : Par) (bg : Bg) (I : Ints) :
    average_multipoles_init Q par bg I [1, 2] [2] [0] [10] = .error .oob := by
  simp [average_multipoles_init, cfor, upTo, List.range', ld, push, Buf.store, cmalloc, Buf.new, bind, Except.bind, pure, Except.pure]

/-- If no requested value occurs twice, no coordinate occurs twice. -/
theorem C21_distinct (Q : Quad) (par : Par) (bg : Bg) (I : Ints) (z_mean mus seps : List ℝ) (hz : z_mean.Nodup)
    (hm : mus.Nodup) (hs : seps.Nodup) {C : Buf ℕ CfCoord} {V : Buf ℕ ℝ}
    (e : corrfunc_init Q par bg I z_mean mus seps = .ok (C, V)) (p q : ℕ) (hp : C.dom p) (hq : C.dom q)
    (h : C.val p = C.val q) : p = q := by
  obtain ⟨C', V', e', h1, -, h3⟩ := C21_corrfunc Q par bg I z_mean mus seps
  rw [e] at e'
  obtain ⟨rfl, rfl⟩ : C = C' ∧ V = V' := by simpa using e'
  obtain ⟨⟨i, j, k⟩, ⟨⟨hi, hj, hk⟩, ep⟩, -⟩ := C21_complete _ _ _ p ((h1 p).1 hp)
  obtain ⟨⟨i', j', k'⟩, ⟨⟨hi', hj', hk'⟩, eq⟩, -⟩ := C21_complete _ _ _ q ((h1 q).1 hq)
  dsimp only at hi hj hk hi' hj' hk' ep eq
  rw [← ep, ← eq, (h3 i hi j hj k hk).1, (h3 i' hi' j' hj' k' hk').1] at h
  simp only [Option.some.injEq, CfCoord.mk.injEq, getD_lt 0 hi, getD_lt 0 hj,
    getD_lt 0 hk, getD_lt 0 hi', getD_lt 0 hj',
    getD_lt 0 hk'] at h
  obtain ⟨a, b, c⟩ := h
  rw [hz.getElem_inj_iff] at a
  rw [hm.getElem_inj_iff] at b
  rw [hs.getElem_inj_iff] at c
  rw [← ep, ← eq, a, b, c]

end Coffe
