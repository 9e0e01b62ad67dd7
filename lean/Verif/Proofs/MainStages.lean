import Verif.Proofs.MainRun

/-! # The stages of any run -/

namespace Coffe
open Classical

theorem InOrder.of_prefix {l pre : List Stage} (h : InOrder l) (hp : pre <+: l) : InOrder pre := by
  obtain ⟨t, rfl⟩ := hp
  rintro a s b rfl t' ht
  exact h a s (b ++ t) (by simp) t' ht

theorem stages_eq (ty : ℤ) : stagesOf ty = [.parser] ++ ([.background] ++
    ((if ty = CORRFUNC ∨ ty = MULTIPOLES ∨ ty = AVERAGE_MULTIPOLES then [.integrals] else []) ++
    ((if ty = CORRFUNC then [.corrfunc] else []) ++ ((if ty = MULTIPOLES then [.multipoles] else []) ++
    ((if ty = AVERAGE_MULTIPOLES then [.average_multipoles] else []) ++
    ((if ty = COVARIANCE_MULTIPOLES ∨ ty = COVARIANCE_AVERAGE_MULTIPOLES then [.covariance] else []) ++ [.output])))))) := by
  unfold stagesOf
  by_cases h1 : ty = CORRFUNC
  · subst h1; rfl
  by_cases h2 : ty = MULTIPOLES
  · subst h2; rfl
  by_cases h3 : ty = AVERAGE_MULTIPOLES
  · subst h3; rfl
  by_cases h4 : ty = COVARIANCE_MULTIPOLES
  · subst h4; rfl
  by_cases h5 : ty = COVARIANCE_AVERAGE_MULTIPOLES
  · subst h5; rfl
  simp [h1, h2, h3, h4, h5]

/-- A part of the program that starts no stage. -/
def KeepsLog {α : Type} (m : Prog α) : Prop := ∀ w, (m w).2.log = w.log

theorem KeepsLog.bind {α β : Type} {m : Prog α} {f : α → Prog β} (h : KeepsLog m) (hf : ∀ a, KeepsLog (f a)) :
    KeepsLog (m >>= f) := by
  intro w
  have := h w
  cases hm : m w with
  | mk r w' =>
    rw [hm] at this
    cases r with
    | ok a => rw [Prog.bind_ok hm, hf a w', this]
    | error e => rw [Prog.bind_err hm, this]

theorem KeepsLog.pure {α : Type} (a : α) : KeepsLog (Pure.pure a : Prog α) := fun _ => rfl
theorem KeepsLog.lift {α : Type} (r : CRes α) : KeepsLog (Prog.lift r) := fun _ => rfl
theorem KeepsLog.disk : KeepsLog Prog.disk := fun _ => rfl
theorem KeepsLog.setDisk (d : Disk) : KeepsLog (Prog.setDisk d) := fun _ => rfl

theorem KeepsLog.fopen_w (s : Text) : KeepsLog (fopen_w s) := by
  refine .bind .disk fun d => ?_
  split
  · exact .bind (.setDisk _) fun _ => .pure _
  · exact .pure _

theorem KeepsLog.fopen_a (s : Text) : KeepsLog (fopen_a s) := by
  refine .bind .disk fun d => ?_
  split
  · exact .bind (.setDisk _) fun _ => .pure _
  · exact .pure _

theorem KeepsLog.fputs (q : Option Path) (t : Text) : KeepsLog (fputs q t) := by
  cases q with
  | none => exact .lift _
  | some q => exact .bind .disk fun _ => .setDisk _

theorem KeepsLog.make_dirs (l : List Text) (s : Text) : KeepsLog (make_dirs l s) := by
  induction l generalizing s with
  | nil => exact .pure _
  | cons c cs ih =>
    refine .bind (.lift _) fun s => .bind .disk fun d => ?_
    split
    · exact .bind (.lift _) fun _ => ih _
    · cases d.mkdir s with
      | none => exact .pure _
      | some d' => exact .bind (.setDisk _) fun _ => .bind (.lift _) fun _ => ih _

theorem KeepsLog.make_path (s : Text) : KeepsLog (output_make_path s) := by
  refine .bind .disk fun d => ?_
  split
  · exact .lift _
  · refine .bind (.make_dirs _ _) fun r => ?_
    cases r
    · exact .pure _
    · exact .lift _

theorem KeepsLog.conf (c s : Text) : KeepsLog (config_write_file c s) := by
  refine .bind (.fopen_w _) fun r => ?_
  cases r
  · exact .pure _
  · exact .fputs _ _

theorem KeepsLog.background (R : Rounding) (s : Text) (l : List Text) (n : ℤ) (bg : BgTable) :
    KeepsLog (output_background R s l n bg) := by
  refine .bind (.lift _) fun _ => .bind (.lift _) fun _ => .bind (.lift _) fun _ => .bind (.lift _) fun t => ?_
  cases t
  · exact .pure _
  · refine .bind (.fopen_w _) fun r => ?_
    cases r
    · exact .pure _
    · exact .fputs _ _

theorem KeepsLog.output (R : Rounding) (par : MainPar) (bg : BgTable) (cf : CArray CfCoord) (mp : CArray MpCoord)
    (ramp : CArray AmpCoord) (c1 c2 : CArray CovCoord) : KeepsLog (coffe_output_init R par bg cf mp ramp c1 c2) := by
  rw [output_split]
  refine .bind (.make_path _) fun out => .bind ?_ fun _ => .bind (.background _ _ _ _ _) fun _ => ?_
  · cases par.conf
    · exact .pure _
    · exact .conf _ _
  · unfold output_result
    split_ifs
    · exact .bind (.lift _) fun _ => .bind (.fopen_a _) fun _ => .bind (.fputs _ _) fun _ => .bind (.lift _) fun _ =>
        .fputs _ _
    · exact .bind (.lift _) fun _ => .bind (.fopen_a _) fun _ => .bind (.fputs _ _) fun _ => .bind (.lift _) fun _ =>
        .fputs _ _
    · exact .bind (.fopen_a _) fun _ => .bind (.lift _) fun _ => .bind (.fputs _ _) fun _ => .bind (.lift _) fun _ =>
        .fputs _ _
    · exact .bind (.fopen_w _) fun _ => .bind (.fputs _ _) fun _ => .bind (.lift _) fun _ => .fputs _ _
    · exact .pure _

/-- One more stage: it fails, or the program goes on. -/
theorem stage_step {α β : Type} (b : Prop) [Decidable b] (s : Stage) (r : CRes α) (x : α) (f : α → Prog β) (d : Disk)
    (log : List Stage) : (∃ e, (stage_if b s r x >>= f) ⟨d, log⟩ = (.error e, ⟨d, log ++ if b then [s] else []⟩)) ∨
      ∃ a, (stage_if b s r x >>= f) ⟨d, log⟩ = f a ⟨d, log ++ if b then [s] else []⟩ := by
  by_cases hb : b
  · rw [if_pos hb]
    cases hr : r with
    | ok a => exact .inr ⟨a, by rw [Prog.bind_ok (stage_yes hb rfl _ _)]⟩
    | error e =>
      refine .inl ⟨e, Prog.bind_err (m := stage_if b s _ x) ?_⟩
      unfold stage_if
      rw [if_pos hb, Prog.bind_ok (rfl : Prog.start _ _ = _)]
      rfl
  · rw [if_neg hb, List.append_nil]
    exact .inr ⟨x, by rw [Prog.bind_ok (stage_no hb s r x _)]⟩

theorem stage_ind {α β : Type} (P : CRes β × RunState → Prop) {b : Prop} [Decidable b] {s : Stage} {r : CRes α} {x : α}
    {f : α → Prog β} {d : Disk} {log : List Stage} (h1 : ∀ e, P (.error e, ⟨d, log ++ if b then [s] else []⟩))
    (h2 : ∀ a, P (f a ⟨d, log ++ if b then [s] else []⟩)) : P ((stage_if b s r x >>= f) ⟨d, log⟩) := by
  rcases stage_step b s r x f d log with ⟨e, h⟩ | ⟨a, h⟩
  · rw [h]; exact h1 e
  · rw [h]; exact h2 a

/-- A run either fails before the output, or it reaches the output. -/
theorem sequence_cases {I : Type} (L : Lib I) (s : Text) (w : RunState) :
    (∃ e pre, main_sequence L s w = (.error e, ⟨w.disk, w.log ++ pre⟩) ∧ Stage.output ∉ pre ∧
      (pre = [.parser] ∨ ∃ p, L.parser s w.disk = .ok p ∧ pre <+: stagesOf p.output_type)) ∨
    ∃ p bg cf mp ramp c1 c2, L.parser s w.disk = .ok p ∧ L.background p.toCPar = .ok bg ∧
      main_sequence L s w = coffe_output_init L.rounding p bg cf mp ramp c1 c2 ⟨w.disk, w.log ++ stagesOf p.output_type⟩ := by
  unfold main_sequence
  rw [Prog.bind_ok (rfl : Prog.start _ _ = _), Prog.bind_ok (rfl : Prog.disk _ = _)]
  cases hp : L.parser s w.disk with
  | error e => exact .inl ⟨e, [.parser], Prog.bind_err rfl, by decide, .inl rfl⟩
  | ok p =>
    rw [Prog.bind_ok (Prog.lift_ok rfl _), Prog.bind_ok (rfl : Prog.start _ _ = _)]
    cases hb : L.background p.toCPar with
    | error e =>
      refine .inl ⟨e, [.parser] ++ [.background], Prog.bind_err ?_, by decide, .inr ⟨p, rfl, ?_⟩⟩
      · simp only [← List.append_assoc]; rfl
      · rw [stages_eq, ← List.append_assoc]
        exact List.prefix_append _ _
    | ok bg =>
      rw [Prog.bind_ok (Prog.lift_ok rfl _)]
      obtain ⟨P, hP⟩ : ∃ P : CRes Unit × RunState → Prop, P = fun r =>
          (∃ e pre, r = (.error e, ⟨w.disk, w.log ++ pre⟩) ∧ Stage.output ∉ pre ∧
            (pre = [.parser] ∨ ∃ q, (Except.ok p : CRes MainPar) = .ok q ∧ pre <+: stagesOf q.output_type)) ∨
          ∃ q bg cf mp ramp c1 c2, (Except.ok p : CRes MainPar) = .ok q ∧ L.background q.toCPar = .ok bg ∧
            r = coffe_output_init L.rounding q bg cf mp ramp c1 c2 ⟨w.disk, w.log ++ stagesOf q.output_type⟩ := ⟨_, rfl⟩
      have fail : ∀ (e : CErr) (pre post : List Stage), Stage.output ∉ pre → stagesOf p.output_type = pre ++ post →
          P (.error e, ⟨w.disk, w.log ++ pre⟩) := by
        intro e pre post h1 h2
        rw [hP]
        exact .inl ⟨e, pre, rfl, h1, .inr ⟨p, rfl, h2 ▸ List.prefix_append _ _⟩⟩
      refine (iff_of_eq (congrFun hP _)).mp ?_
      have S := stages_eq p.output_type
      have nA : Stage.output ∉ (if p.output_type = CORRFUNC ∨ p.output_type = MULTIPOLES ∨
        p.output_type = AVERAGE_MULTIPOLES then [Stage.integrals] else []) := by split_ifs <;> decide
      have nB : Stage.output ∉ (if p.output_type = CORRFUNC then [Stage.corrfunc] else []) := by split_ifs <;> decide
      have nC : Stage.output ∉ (if p.output_type = MULTIPOLES then [Stage.multipoles] else []) := by split_ifs <;> decide
      have nD : Stage.output ∉ (if p.output_type = AVERAGE_MULTIPOLES then [Stage.average_multipoles] else []) := by
        split_ifs <;> decide
      have nE : Stage.output ∉ (if p.output_type = COVARIANCE_MULTIPOLES ∨ p.output_type = COVARIANCE_AVERAGE_MULTIPOLES
        then [Stage.covariance] else []) := by split_ifs <;> decide
      have n0 : Stage.output ∉ [Stage.parser] := by decide
      have n1 : Stage.output ∉ [Stage.background] := by decide
      refine stage_ind P (fun e => ?_) fun a1 => stage_ind P (fun e => ?_) fun a2 => stage_ind P (fun e => ?_) fun a3 =>
        stage_ind P (fun e => ?_) fun a4 => stage_ind P (fun e => ?_) fun a5 => ?_
      all_goals simp only [List.append_assoc]
      · exact fail e _ _ (by simp only [List.mem_append, not_or]; exact ⟨n0, n1, nA⟩) (by rw [S]; simp only [List.append_assoc]; rfl)
      · exact fail e _ _ (by simp only [List.mem_append, not_or]; exact ⟨n0, n1, nA, nB⟩)
          (by rw [S]; simp only [List.append_assoc]; rfl)
      · exact fail e _ _ (by simp only [List.mem_append, not_or]; exact ⟨n0, n1, nA, nB, nC⟩)
          (by rw [S]; simp only [List.append_assoc]; rfl)
      · exact fail e _ _ (by simp only [List.mem_append, not_or]; exact ⟨n0, n1, nA, nB, nC, nD⟩)
          (by rw [S]; simp only [List.append_assoc]; rfl)
      · exact fail e _ _ (by simp only [List.mem_append, not_or]; exact ⟨n0, n1, nA, nB, nC, nD, nE⟩)
          (by rw [S]; simp only [List.append_assoc]; rfl)
      · rw [Prog.bind_ok (rfl : Prog.start _ _ = _)]
        simp only [List.append_assoc]
        rw [← S, hP]
        exact .inr ⟨p, bg, _, _, _, _, _, rfl, hb, rfl⟩

end Coffe
