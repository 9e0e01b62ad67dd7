import Verif.Proofs.PySim
import Verif.Spec.Python

/-! # Helper lemmas: stages of a computation on two objects with the same settings -/

namespace Coffe
open Classical

theorem visible_eq {p q : PyPar} (h : p.visible = q.visible) :
    q = { p with divergent := q.divergent } := by
  have : p = { q.visible with divergent := p.divergent } := by
    rw [← h]; rfl
  rw [this]; rfl

/-- The integral table of `s` is the one its current parameters, background and spectrum give. -/
def TabOk (N : Num) (s : PyObj) : Prop :=
  ∃ b ps, s.bg = some b ∧ s.ps = some ps ∧ ((s.par.pk_type ≠ .COFFE_PK_LINEAR → s.cls ≠ none) ∧ ¬ s.par.RenormOob) ∧
    s.ints = integrals_init (intNum N s.par ps s.cls b) (s.par.toPar N) s.par.l

/-- Both objects have the same visible parameters; the switch is on if needed, and it is on in both or in none if there are too
few widths of the redshift bins. -/
structure Vis (s r : PyObj) : Prop where
  vis : s.par.visible = r.par.visible
  div : s.par.contrib.divergent = true → s.par.divergent = true ∧ r.par.divergent = true
  oob : s.par.RenormOob ↔ r.par.RenormOob

/-- ... and the same background and spectrum. -/
structure Rdy (s r : PyObj) : Prop extends Vis s r where
  bg : ∃ b, s.bg = some b ∧ r.bg = some b
  ps : ∃ ps, s.ps = some ps ∧ r.ps = some ps
  cls : s.par.pk_type ≠ .COFFE_PK_LINEAR → s.cls = r.cls

theorem signalAt_congr (N : Num) (s r : PyObj) (h : Rdy s r) (hs : TabOk N s) (hr : TabOk N r) (b : Bg)
    (z zmin zmax sep mu : ℝ) (l : ℕ) (out : OutputType) :
    signalAt N s b z zmin zmax sep mu l out = signalAt N r b z zmin zmax sep mu l out := by
  obtain ⟨b1, ps1, hb1, hp1, hc1, hi1⟩ := hs
  obtain ⟨b2, ps2, hb2, hp2, hc2, hi2⟩ := hr
  obtain ⟨b', hb, hb'⟩ := h.bg
  obtain ⟨ps', hp, hp'⟩ := h.ps
  have eb1 : b1 = b' := by rw [hb1] at hb; simpa using hb
  have eb2 : b2 = b' := by rw [hb2] at hb'; simpa using hb'
  have ep1 : ps1 = ps' := by rw [hp1] at hp; simpa using hp
  have ep2 : ps2 = ps' := by rw [hp2] at hp'; simpa using hp'
  subst eb1; subst eb2; subst ep1; subst ep2
  have hv := visible_eq h.vis
  have hview : s.par.intView ps2 s.cls = s.par.intView ps2 r.cls := by
    unfold PyPar.intView
    by_cases hpk : s.par.pk_type = .COFFE_PK_LINEAR
    · simp [hpk]
    · simp [hpk, h.cls hpk]
  have hnum : intNum N r.par ps2 r.cls b2 = intNum N s.par ps2 s.cls b2 := by
    rw [hv]
    funext k
    show (if k = ⟨4, 0, .int, .int⟩ then N.four ⟨s.par.intView ps2 r.cls, _, _, _⟩
      else N.plain (s.par.intView ps2 r.cls) k) = _
    rw [← hview]; rfl
  unfold signalAt
  rw [hi1, hi2, hnum]
  by_cases hd : s.par.contrib.divergent = true
  · have : r.par = s.par := by
      rw [hv, (h.div hd).2, ← (h.div hd).1]
    rw [this]
  · have hd' : s.par.contrib.divergent = false := by simpa using hd
    have t : r.par.toPar N = { s.par.toPar N with divergent := r.par.divergent } := by rw [hv]; rfl
    have q : r.par.quadView = s.par.quadView := by rw [hv]; rfl
    have l' : r.par.l = s.par.l := by rw [hv]
    rw [t, q, l']
    have hP : (s.par.toPar N).correlation_contrib.divergent = false := hd'
    have hM : (s.par.toPar N).midpoint_approximation = true := rfl
    generalize s.par.toPar N = P at hP hM ⊢
    generalize intNum N s.par ps2 s.cls b2 = num
    exact (signal_div_irrelevant (N.quad s.par.quadView) P hP hM b num num N.junk s.par.l
      r.par.divergent (fun _ _ => rfl) z zmin zmax sep mu l out).symm

theorem Vis.eq {s r : PyObj} (h : Vis s r) : r.par = { s.par with divergent := r.par.divergent } :=
  visible_eq h.vis

/-! ## Rows of equal settings are equal -/

theorem corrfuncRows_congr (N : Num) (s r : PyObj) (h : Rdy s r) (hs : TabOk N s) (hr : TabOk N r)
    (b : Bg) : corrfuncRows N s b = corrfuncRows N r b := by
  unfold corrfuncRows
  simp only [signalAt_congr N s r h hs hr b]
  rw [h.eq]

theorem multipoleRows_congr (N : Num) (s r : PyObj) (h : Rdy s r) (hs : TabOk N s) (hr : TabOk N r)
    (b : Bg) : multipoleRows N s b = multipoleRows N r b := by
  unfold multipoleRows
  simp only [signalAt_congr N s r h hs hr b]
  rw [h.eq]

theorem averageRows_congr (N : Num) (s r : PyObj) (h : Rdy s r) (hs : TabOk N s) (hr : TabOk N r)
    (b : Bg) : averageRows N s b = averageRows N r b := by
  unfold averageRows
  simp only [signalAt_congr N s r h hs hr b]
  rw [h.eq]

theorem covRows_congr (N : Num) (s r : PyObj) (h : Vis s r) (ps : Spectrum) (b : Bg) :
    covRows N s.par ps b = covRows N r.par ps b := by
  rw [h.eq]; rfl

theorem acovRows_congr (N : Num) (s r : PyObj) (h : Vis s r) (ps : Spectrum) (b : Bg) :
    acovRows N s.par ps b = acovRows N r.par ps b := by
  rw [h.eq]; rfl

end Coffe
