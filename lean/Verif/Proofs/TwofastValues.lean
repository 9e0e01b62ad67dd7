import Verif.Props.Twofast
import Verif.Model.C.IntegralValues

/-! # The arrays of the one-dimensional FFTLog, cell by cell -/

namespace Coffe

/-- The window at a sample. -/
noncomputable def windowAt (kmin kmax : ℝ) (len i : ℕ) : ℝ :=
  match fft_window kmin kmin kmax len (logGrid kmin kmin kmax len i) with
  | .ok w => w
  | .error _ => 0

/-- The biased, windowed samples. -/
noncomputable def fftSample (S : ℕ → ℝ) (q kmin kmax : ℝ) (len i : ℕ) : ℝ :=
  if i < len then (kmax / kmin) ^ ((3 - q) * i / len) * S i * windowAt kmin kmax len i else 0

/-- The filtered Fourier coefficients. -/
noncomputable def fftCoeff (fft : ℕ → (ℕ → ℝ) → ℕ → ℂ) (S : ℕ → ℝ) (q kmin kmax : ℝ) (len i : ℕ) : ℂ :=
  (windowAt kmin kmax len (len / 2 + 1 - 2 + i) : ℂ) * (starRingEnd ℂ) (fft len (fftSample S q kmin kmax len) i)
    / (2 * Real.pi * len / Real.log (kmax / kmin) : ℝ)

/-- The coefficients of the transform. -/
noncomputable def fftMode (fft : ℕ → (ℕ → ℝ) → ℕ → ℂ) (mql : ℝ → ℝ → ℝ → ℝ → ℂ) (S : ℕ → ℝ) (l nu kmin kmax : ℝ) (len i : ℕ) : ℂ :=
  if i < len / 2 + 1 then fftCoeff fft S (twofast_selectqnu l nu + nu) kmin kmax len i *
    mql (2 * Real.pi * i / Real.log (kmax / kmin)) (twofast_selectqnu l nu) l (kmin * 1) else 0

/-- The transform itself. -/
noncomputable def fftValue (fft : ℕ → (ℕ → ℝ) → ℕ → ℂ) (ifft : ℕ → (ℕ → ℂ) → ℕ → ℝ) (mql : ℝ → ℝ → ℝ → ℝ → ℂ) (S : ℕ → ℝ)
    (l nu kmin kmax : ℝ) (len i : ℕ) : ℝ :=
  ifft len (fftMode fft mql S l nu kmin kmax len) i * (kmin * kmin * kmin * (kmax / kmin) ^
    (-((twofast_selectqnu l nu + nu) * i / len)) / Real.pi / (1 * kmin) ^ nu / Real.log (kmax / kmin))

theorem windowAt_ok {kmin kmax : ℝ} {len : ℕ} (h0 : 0 < kmin) (h1 : kmin < kmax) (h : ClearGrid kmin kmax len) {i : ℕ}
    (hi : i < len) : fft_window kmin kmin kmax len (logGrid kmin kmin kmax len i) = .ok (windowAt kmin kmax len i) := by
  obtain ⟨w, hw, -⟩ := fft_window_ok h0 h1 h hi
  rw [windowAt, hw]

theorem getD_of_holds {α : Type} {b c : Buf ℕ α} {n : ℕ} {f : ℕ → α} (d : α) (h : b.Holds n f) (hs : b.SameFrom c n)
    (hc : ∀ i, n ≤ i → c.val i = none) : (fun i => (b.val i).getD d) = fun i => if i < n then f i else d := by
  funext i
  by_cases hi : i < n
  · rw [if_pos hi, (h i hi).2]; rfl
  · rw [if_neg hi, hs.2 i (not_lt.1 hi), hc i (not_lt.1 hi)]; rfl

theorem twofast_fft_input_val (spline : ℝ → CRes ℝ) (fft : ℕ → (ℕ → ℝ) → ℕ → ℂ) (out : Buf ℕ ℂ) (len : ℕ) (q kmin kmax : ℝ)
    (S : ℕ → ℝ) (hlen : 2 ≤ len) (hsz : len < 2 ^ 62) (h0 : 0 < kmin) (h1 : kmin < kmax) (hc : ClearGrid kmin kmax len)
    (hS : ∀ i < len, spline (logGrid kmin kmin kmax len i) = .ok (S i)) (ho : ∀ i, out.dom i ↔ i < len / 2 + 1) :
    ∃ b, twofast_fft_input spline fft out len q kmin kmin kmax = .ok b ∧
      b.Holds (len / 2 + 1) (fftCoeff fft S q kmin kmax len) ∧ b.SameFrom out (len / 2 + 1) := by
  have hW := fun i hi => windowAt_ok h0 h1 hc (i := i) hi
  obtain ⟨X, hX, hXh, -⟩ := cfor_cells (cmalloc len : Buf ℕ ℝ) len (fun i => logGrid kmin kmin kmax len i)
    (fun i b => b.store i (logGrid kmin kmin kmax len i)) (fun i hi => hi) (fun i hi c _ _ => rfl)
  obtain ⟨Y, hY, hYh, hYs⟩ := cfor_cells (cmalloc len : Buf ℕ ℝ) len
    (fun i => (kmax / kmin) ^ ((3 - q) * i / len) * S i * windowAt kmin kmax len i)
    (fun i b => do
      let s ← spline (logGrid kmin kmin kmax len i)
      let w ← fft_window kmin kmin kmax len (logGrid kmin kmin kmax len i)
      b.store i ((kmax / kmin) ^ ((3 - q) * i / len) * s * w)) (fun i hi => hi)
    (fun i hi c _ _ => by simp only [hS i hi, hW i hi, bind, Except.bind])
  have hYv : (fun i => (Y.val i).getD 0) = fftSample S q kmin kmax len :=
    getD_of_holds 0 hYh hYs fun i _ => rfl
  have hidx : ∀ i < len / 2 + 1, size_t_sub_add (len / 2 + 1) 2 i = len / 2 + 1 - 2 + i ∧ len / 2 + 1 - 2 + i < len :=
    fun i hi => ⟨size_t_index (by omega) (by omega), by omega⟩
  obtain ⟨b, hb, hbh, hbs⟩ := cfor_cells out (len / 2 + 1) (fftCoeff fft S q kmin kmax len)
    (fun i b => do
      let x ← X.load (size_t_sub_add (len / 2 + 1) 2 i)
      let w ← fft_window kmin kmin kmax len x
      let y ← (Buf.of (· < len / 2 + 1) (fft len fun i => (Y.val i).getD 0)).load i
      b.store i (w * (starRingEnd ℂ) y / (2 * Real.pi * len / Real.log (kmax / kmin) : ℝ)))
    (fun i hi => (ho i).2 hi) (fun i hi c _ _ => by
      obtain ⟨e, hlt⟩ := hidx i hi
      rw [e, hYv]
      simp only [hXh.load hlt, hW _ hlt, Buf.load_of (dom := (· < len / 2 + 1)) _ hi, bind, Except.bind]
      rfl)
  refine ⟨b, ?_, hbh, hbs⟩
  unfold twofast_fft_input
  dsimp only
  rw [hX]
  simp only [bind, Except.bind] at hY hb ⊢
  rw [hY]
  simp only
  rw [if_neg (by omega)]
  exact hb

theorem twofast_1bessel_val (spline : ℝ → CRes ℝ) (fft : ℕ → (ℕ → ℝ) → ℕ → ℂ) (ifft : ℕ → (ℕ → ℂ) → ℕ → ℝ)
    (mql : ℝ → ℝ → ℝ → ℝ → ℂ) (X Y : Buf ℕ ℝ) (len : ℕ) (l nu kmin kmax : ℝ) (S : ℕ → ℝ)
    (hlen : 2 ≤ len) (hsz : len < 2 ^ 62) (h0 : 0 < kmin) (h1 : kmin < kmax) (hc : ClearGrid kmin kmax len)
    (hS : ∀ i < len, spline (logGrid kmin kmin kmax len i) = .ok (S i)) (hX : ∀ i < len, X.dom i) (hY : ∀ i < len, Y.dom i) :
    ∃ X' Y', twofast_1bessel spline fft ifft mql X Y len l nu 1 kmin kmin kmax = .ok (X', Y') ∧
      X'.Holds len (fun i => (kmax / kmin) ^ ((i : ℝ) / len)) ∧ Y'.Holds len (fftValue fft ifft mql S l nu kmin kmax len) := by
  obtain ⟨B, hB, hBf, hBs⟩ := twofast_fft_input_val spline fft (cmalloc (len / 2 + 1)) len (twofast_selectqnu l nu + nu) kmin
    kmax S hlen hsz h0 h1 hc hS (fun i => Iff.rfl)
  obtain ⟨X', hX', hXh, -⟩ := cfor_cells X len (fun i => logGrid 1 kmin kmax len i)
    (fun i b => b.store i (logGrid 1 kmin kmax len i)) hX (fun i hi c _ _ => rfl)
  obtain ⟨P, hP, hPh, -⟩ := cfor_cells (cmalloc len : Buf ℕ ℝ) len
    (fun i => kmin * kmin * kmin * (kmax / kmin) ^ (-((twofast_selectqnu l nu + nu) * i / len)) / Real.pi / (1 * kmin) ^ nu
      / Real.log (kmax / kmin))
    (fun i b => b.store i (kmin * kmin * kmin * (kmax / kmin) ^ (-((twofast_selectqnu l nu + nu) * i / len)) / Real.pi
      / (1 * kmin) ^ nu / Real.log (kmax / kmin))) (fun i hi => hi) (fun i hi c _ _ => rfl)
  obtain ⟨T, hT, hTh, -⟩ := cfor_cells (cmalloc (len / 2 + 1) : Buf ℕ ℂ) (len / 2 + 1)
    (fun i => fftCoeff fft S (twofast_selectqnu l nu + nu) kmin kmax len i *
      mql (2 * Real.pi * i / Real.log (kmax / kmin)) (twofast_selectqnu l nu) l (kmin * 1))
    (fun i b => do
      let y ← B.load i
      b.store i (y * mql (2 * Real.pi * i / Real.log (kmax / kmin)) (twofast_selectqnu l nu) l (kmin * 1)))
    (fun i hi => hi) (fun i hi c _ _ => by simp only [hBf.load hi, bind, Except.bind])
  obtain ⟨B', hB', hBh', hBs'⟩ := cfor_cells B (len / 2 + 1)
    (fun i => fftCoeff fft S (twofast_selectqnu l nu + nu) kmin kmax len i *
      mql (2 * Real.pi * i / Real.log (kmax / kmin)) (twofast_selectqnu l nu) l (kmin * 1))
    (fun i b => do
      let y ← T.load i
      b.store i y) (fun i hi => (hBf i hi).1) (fun i hi c _ _ => by simp only [hTh.load hi, bind, Except.bind])
  have hBv : (fun i => (B'.val i).getD 0) = fftMode fft mql S l nu kmin kmax len :=
    getD_of_holds 0 hBh' hBs' fun i hi => by rw [hBs.2 i hi]; rfl
  have hO : (Buf.of (· < len) (ifft len fun i => (B'.val i).getD 0)).Holds len (ifft len fun i => (B'.val i).getD 0) :=
    fun i hi => Buf.load_eq.1 (Buf.load_of (dom := (· < len)) _ hi)
  obtain ⟨O, hOe, hOh, -⟩ := cfor_cells (Buf.of (· < len) (ifft len fun i => (B'.val i).getD 0)) len
    (fun i => ifft len (fun i => (B'.val i).getD 0) i * (kmin * kmin * kmin * (kmax / kmin) ^
      (-((twofast_selectqnu l nu + nu) * i / len)) / Real.pi / (1 * kmin) ^ nu / Real.log (kmax / kmin)))
    (fun i b => do
      let v ← b.load i
      let c ← P.load i
      b.store i (v * c)) (fun i hi => hi) (fun i hi c hd hv => by
        have : c.load i = .ok (ifft len (fun i => (B'.val i).getD 0) i) :=
          Buf.load_eq.2 ⟨by rw [hd]; exact (hO i hi).1, by rw [hv]; exact (hO i hi).2⟩
        simp only [this, hPh.load hi, bind, Except.bind])
  obtain ⟨Y', hY', hYh, -⟩ := cfor_cells Y len _
    (fun i b => do
      let v ← O.load i
      b.store i v) hY (fun i hi c _ _ => by simp only [hOh.load hi, bind, Except.bind]; rfl)
  refine ⟨X', Y', ?_, ?_, ?_⟩
  · unfold twofast_1bessel
    dsimp only
    rw [hB]
    simp only [bind, Except.bind] at hT hB' hOe hY' ⊢
    rw [hX']
    simp only
    rw [hP]
    simp only
    rw [hT]
    simp only
    rw [hB']
    simp only
    rw [hOe]
    simp only
    rw [hY']
    rfl
  · intro i hi
    have := hXh i hi
    simpa [logGrid] using this
  · rw [hBv] at hYh
    exact hYh

/-- The values of a table. -/
noncomputable def tableValue (fft : ℕ → (ℕ → ℝ) → ℕ → ℂ) (ifft : ℕ → (ℕ → ℂ) → ℕ → ℝ) (mql : ℝ → ℝ → ℝ → ℝ → ℂ) (S : ℕ → ℝ)
    (zero : ℝ) (direct : ℝ → ℝ) (e : Key) (kmin kmax : ℝ) (len i : ℕ) : ℝ :=
  let n := integrals_local e.n e.state_n
  let l := integrals_local e.l e.state_l
  if i = 0 then (if n < l then 0 else zero * integrals_coefficients e.l e.state_l)
  else if i < 43 then direct (tableSep len (kmax / kmin) i)
  else fftValue fft ifft mql S l n kmin kmax len (i - 43) *
    (if n < l then 1 else ((kmax / kmin) ^ (((i - 43 : ℕ) : ℝ) / len)) ^ (n - l))

theorem coffe_integrals_renormalizable_val (spline : ℝ → CRes ℝ) (fft : ℕ → (ℕ → ℝ) → ℕ → ℂ) (ifft : ℕ → (ℕ → ℂ) → ℕ → ℝ)
    (mql : ℝ → ℝ → ℝ → ℝ → ℂ) (zero : ℝ) (direct : ℝ → ℝ) (len : ℕ) (k : Key) (kmin kmax : ℝ) (S : ℕ → ℝ)
    (hlen : 2 ≤ len) (hsz : len < 2 ^ 62) (h0 : 0 < kmin) (h1 : kmin < kmax) (hc : ClearGrid kmin kmax len)
    (hS : ∀ i < len, spline (logGrid kmin kmin kmax len i) = .ok (S i)) :
    ∃ x y, coffe_integrals_renormalizable (fun X Y => twofast_1bessel spline fft ifft mql X Y len
        (integrals_local k.l k.state_l) (integrals_local k.n k.state_n) 1 kmin kmin kmax) zero direct len k
        = .ok (x, y, len + 43) ∧
      x.IsArray (len + 43) (tableSep len (kmax / kmin)) ∧
      y.IsArray (len + 43) (tableValue fft ifft mql S zero direct k kmin kmax len) := by
  have hratio : 1 < kmax / kmin := (one_lt_div h0).2 h1
  obtain ⟨X', Y', hbes, hX', hY'⟩ := twofast_1bessel_val spline fft ifft mql (cmalloc len) (cmalloc len) len
    (integrals_local k.l k.state_l) (integrals_local k.n k.state_n) kmin kmax S hlen hsz h0 h1 hc hS (fun i hi => hi)
    (fun i hi => hi)
  -- the rescaled transform
  let g : ℕ → ℝ := fun i => fftValue fft ifft mql S (integrals_local k.l k.state_l) (integrals_local k.n k.state_n) kmin kmax len i *
    (if integrals_local k.n k.state_n < integrals_local k.l k.state_l then 1 else
      ((kmax / kmin) ^ ((i : ℝ) / len)) ^ (integrals_local k.n k.state_n - integrals_local k.l k.state_l))
  obtain ⟨Y2, hY2, hstep⟩ : ∃ Y2, Buf.Holds Y2 len g ∧
      (if integrals_local k.n k.state_n ≥ integrals_local k.l k.state_l then do
        let fft_y ← coffe_multiply_power_array_self (some Y') (some X') len
          (integrals_local k.n k.state_n - integrals_local k.l k.state_l)
        pure (fft_y, zero * integrals_coefficients k.l k.state_l)
      else pure (Y', 0) : CRes (Buf ℕ ℝ × ℝ)) = .ok (Y2, if integrals_local k.n k.state_n < integrals_local k.l k.state_l
        then 0 else zero * integrals_coefficients k.l k.state_l) := by
    by_cases hnl : integrals_local k.n k.state_n < integrals_local k.l k.state_l
    · rw [if_neg (not_le.2 hnl), if_pos hnl]
      refine ⟨Y', ?_, rfl⟩
      simp only [g, if_pos hnl, mul_one]
      exact hY'
    · rw [if_pos (not_lt.1 hnl), if_neg hnl]
      obtain ⟨c, hc, hch, -⟩ := C46_multiply_power_self Y' X' len _ _
        (integrals_local k.n k.state_n - integrals_local k.l k.state_l) hY' hX' (fun i _ => by
          have : 0 < kmax / kmin := by linarith
          positivity)
      refine ⟨c, ?_, by rw [hc]; rfl⟩
      simp only [g, if_neg hnl]
      exact hch
  generalize hx0 : (if integrals_local k.n k.state_n < integrals_local k.l k.state_l
        then 0 else zero * integrals_coefficients k.l k.state_l) = x0 at *
  let A : Buf ℕ ℝ := (cmalloc (len + 42 + 1) : Buf ℕ ℝ).upd 0 0
  let B : Buf ℕ ℝ := (cmalloc (len + 42 + 1) : Buf ℕ ℝ).upd 0 x0
  let F1 : ℕ → ℝ := fun i => (min_sep.getD (i - 1) 0 : ℝ)
  let F2 : ℕ → ℝ := fun i => (kmax / kmin) ^ (((i - 43 : ℕ) : ℝ) / len)
  have hA : (cmalloc (len + 42 + 1) : Buf ℕ ℝ).store 0 0 = .ok A := store_ok (show 0 < len + 42 + 1 by omega) 0
  have hB : (cmalloc (len + 42 + 1) : Buf ℕ ℝ).store 0 x0 = .ok B := store_ok (show 0 < len + 42 + 1 by omega) x0
  have hl1 := cfor_pair (upTo 1 (42 + 1)) F1 (fun i => direct (F1 i)) (fun i b => do
      let x ← b.1.store i (min_sep.getD (i - 1) 0 : ℝ)
      let v ← x.load i
      let y ← b.2.store i (direct v)
      pure (x, y)) A B (fun i hi => by have := (mem_upTo.1 hi).2; show i < len + 43; omega)
      (fun i hi => by have := (mem_upTo.1 hi).2; show i < len + 43; omega) (fun i hi x' y' hx hy => by
        simp only [bind, Except.bind, store_ok hx, upd_load hx, store_ok hy]
        rfl)
  have hl2 := cfor_pair (upTo 43 (len + 43)) F2 (fun i => g (i - 43)) (fun i b => do
      let u ← X'.load (i - 43)
      let x ← b.1.store i u
      let v ← Y2.load (i - 43)
      let y ← b.2.store i v
      pure (x, y)) (A.fill (upTo 1 (42 + 1)) id F1) (B.fill (upTo 1 (42 + 1)) id fun i => direct (F1 i))
      (fun i hi => by rw [Buf.fill_dom]; exact (mem_upTo.1 hi).2)
      (fun i hi => by rw [Buf.fill_dom]; exact (mem_upTo.1 hi).2) (fun i hi x' y' hx hy => by
        have hi' := mem_upTo.1 hi
        have hlt : i - 43 < len := by omega
        simp only [bind, Except.bind, hX'.load hlt, hY2.load hlt, store_ok hx, store_ok hy]
        rfl)
  refine ⟨(A.fill (upTo 1 (42 + 1)) id F1).fill (upTo 43 (len + 43)) id F2,
    (B.fill (upTo 1 (42 + 1)) id fun i => direct (F1 i)).fill (upTo 43 (len + 43)) id fun i => g (i - 43), ?_, ⟨?_, ?_⟩, ⟨?_, ?_⟩⟩
  · unfold coffe_integrals_renormalizable
    dsimp only
    rw [hbes]
    rw [min_sep_len_eq]
    simp only [bind, Except.bind] at hstep hl1 hl2 ⊢
    rw [hstep]
    simp only
    rw [hA]
    simp only
    rw [hB]
    simp only
    rw [hl1]
    simp only
    rw [show len + 42 + 1 - len = 43 by omega, show len + 42 + 1 = len + 43 by omega, hl2]
    rfl
  · intro i; rw [Buf.fill_dom, Buf.fill_dom]; exact Iff.rfl
  · intro i hi
    refine ⟨by rw [Buf.fill_dom, Buf.fill_dom]; exact hi, ?_⟩
    unfold tableSep
    by_cases h43 : i < 43
    · rw [Buf.fill_not_mem _ _ _ _ (fun j hj e => by have := (mem_upTo.1 hj).1; simp only [id] at e; omega)]
      by_cases hz : i = 0
      · rw [Buf.fill_not_mem _ _ _ _ (fun j hj e => by have := (mem_upTo.1 hj).1; simp only [id] at e; omega), if_pos hz, hz]
        simp [A, Buf.upd]
      · rw [if_neg hz, if_pos h43]
        exact Buf.fill_mem _ _ id _ (fun a _ b _ e => by rw [show a = b from e]) (mem_upTo.2 ⟨by omega, by omega⟩)
    · rw [if_neg (by omega), if_neg h43]
      exact Buf.fill_mem _ _ id _ (fun a _ b _ e => by rw [show a = b from e]) (mem_upTo.2 ⟨by omega, hi⟩)
  · intro i; rw [Buf.fill_dom, Buf.fill_dom]; exact Iff.rfl
  · intro i hi
    refine ⟨by rw [Buf.fill_dom, Buf.fill_dom]; exact hi, ?_⟩
    unfold tableValue
    dsimp only
    by_cases h43 : i < 43
    · rw [Buf.fill_not_mem _ _ _ _ (fun j hj e => by have := (mem_upTo.1 hj).1; simp only [id] at e; omega)]
      by_cases hz : i = 0
      · rw [Buf.fill_not_mem _ _ _ _ (fun j hj e => by have := (mem_upTo.1 hj).1; simp only [id] at e; omega), if_pos hz, hz, hx0]
        simp [B, Buf.upd]
      · rw [if_neg hz, if_pos h43]
        have : tableSep len (kmax / kmin) i = F1 i := by unfold tableSep; rw [if_neg hz, if_pos h43]
        rw [this]
        exact Buf.fill_mem _ _ id _ (fun a _ b _ e => by rw [show a = b from e]) (mem_upTo.2 ⟨by omega, by omega⟩)
    · rw [if_neg (by omega), if_neg h43]
      exact Buf.fill_mem _ _ id (fun i => g (i - 43)) (fun a _ b _ e => by rw [show a = b from e]) (mem_upTo.2 ⟨by omega, hi⟩)

end Coffe
