import Verif.Model.C.RenormReach
import Verif.Props.Common
import Verif.Props.TableReach
import Verif.Proofs.Background

/-! # The range of the renormalisation table is the one in the lists, if the lists are long enough -/

namespace Coffe
open Classical

theorem cfor_error_only {κ σ : Type} {is : List κ} {body : κ → σ → CRes σ} {e0 : CErr}
    (h : ∀ i ∈ is, ∀ s e, body i s = .error e → e = e0) (s : σ) (e : CErr) (he : cfor is body s = .error e) : e = e0 := by
  induction is generalizing s with
  | nil => cases he
  | cons i is ih =>
    simp only [cfor] at he
    cases hb : body i s with
    | ok s' =>
      rw [hb] at he
      exact ih (fun j hj => h j (List.mem_cons_of_mem _ hj)) s' he
    | error e' =>
      rw [hb] at he
      cases he
      exact h i List.mem_cons_self s _ hb

theorem ld_get {α : Type} {l : List α} {i : ℕ} (hi : i < l.length) : ld l i = .ok l[i] := by
  unfold ld
  rw [List.getElem?_eq_getElem hi]

/-- A number that is the largest entry is what the fold finds. -/
theorem foldl_max_unique {l : List ℝ} {m : ℝ} (hm : m ∈ l) (hle : ∀ x ∈ l, x ≤ m) : l.foldl max (l.headD 0) = m := by
  obtain ⟨h1, h2⟩ := largest_of l (List.ne_nil_of_mem hm)
  exact le_antisymm (hle _ h1) (h2 _ hm)

theorem range_ok {chi : ℝ → ℝ} {z d zmax : List ℝ} {out : OutputType} (ho : out = .CORRFUNC ∨ out = .MULTIPOLES)
    (hz : z ≠ []) (hl : z.length ≤ d.length) :
    renormalization_range out chi z d zmax = .ok (renormalization_chi_max out chi z d zmax) := by
  have h0 : 0 < z.length := List.length_pos_of_ne_nil hz
  have hlen : (List.zipWith (· + ·) z d).length = z.length := by simp; omega
  obtain ⟨b, e, hb, -⟩ := cfor_cells (cmalloc z.length) z.length (fun i => (List.zipWith (· + ·) z d).getD i 0)
    (fun i b => do
      let z ← ld z i
      let d ← ld d i
      b.store i (z + d)) (fun i hi => hi) (fun i hi c _ _ => by
        rw [ld_get hi, ld_get (show i < d.length by omega)]
        have : (List.zipWith (· + ·) z d).getD i 0 = z[i] + d[i]'(by omega) := by
          simp [List.getD, List.getElem?_eq_getElem (show i < (List.zipWith (· + ·) z d).length by omega)]
        rw [this]
        rfl)
  unfold renormalization_range renormalization_chi_max
  rw [if_pos ho, if_pos ho]
  refine (congrArg (· >>= _) e).trans ?_
  show (coffe_max_array_double b z.length >>= _) = _
  rcases C46_max b z.length _ hb with ⟨h, -⟩ | ⟨m, e2, ⟨i, hi, h1⟩, h2⟩
  · omega
  · refine (congrArg (· >>= _) e2).trans ?_
    show Except.ok (chi m) = _
    congr 2
    symm
    refine foldl_max_unique ?_ ?_
    · rw [h1]
      simp only [List.getD, List.getElem?_eq_getElem (show i < (List.zipWith (· + ·) z d).length by omega)]
      exact List.getElem_mem _
    · intro x hx
      obtain ⟨j, hj, rfl⟩ := List.getElem_of_mem hx
      have := h2 j (by omega)
      simpa only [List.getD, List.getElem?_eq_getElem hj, Option.getD_some] using this

theorem range_average {chi : ℝ → ℝ} {z d zmax : List ℝ} (hz : zmax ≠ []) :
    renormalization_range .AVERAGE_MULTIPOLES chi z d zmax =
      .ok (renormalization_chi_max .AVERAGE_MULTIPOLES chi z d zmax) := by
  have h0 : 0 < zmax.length := List.length_pos_of_ne_nil hz
  unfold renormalization_range renormalization_chi_max
  rw [if_neg (by simp), if_pos rfl, if_neg (by simp), if_pos rfl]
  rcases C46_max (Buf.of (· < zmax.length) fun i => zmax.getD i 0) zmax.length (fun i => zmax.getD i 0)
    (fun i hi => ⟨hi, by simp only [Buf.of, if_pos hi]⟩) with
    ⟨h, -⟩ | ⟨m, e2, ⟨i, hi, h1⟩, h2⟩
  · omega
  · refine (congrArg (· >>= _) e2).trans ?_
    show Except.ok (chi m) = _
    congr 2
    symm
    refine foldl_max_unique ?_ ?_
    · rw [h1]
      simp only [List.getD, List.getElem?_eq_getElem hi]
      exact List.getElem_mem _
    · intro x hx
      obtain ⟨j, hj, rfl⟩ := List.getElem_of_mem hx
      have := h2 j (by omega)
      simpa only [List.getD, List.getElem?_eq_getElem hj, Option.getD_some] using this

theorem range_oob {chi : ℝ → ℝ} {z d zmax : List ℝ} {out : OutputType} (ho : out = .CORRFUNC ∨ out = .MULTIPOLES)
    (hl : d.length < z.length) : renormalization_range out chi z d zmax = .error .oob := by
  have hbody : ∀ i ∈ upTo 0 z.length, ∀ (b : Buf ℕ ℝ) e, (do
      let z ← ld z i
      let d ← ld d i
      b.store i (z + d) : CRes (Buf ℕ ℝ)) = .error e → e = .oob := by
    intro i _ b e h
    unfold ld at h
    cases hz : z[i]? with
    | none => rw [hz] at h; cases h; rfl
    | some a =>
      cases hd : d[i]? with
      | none => rw [hz, hd] at h; cases h; rfl
      | some c =>
        rw [hz, hd] at h
        have h : b.store i (a + c) = .error e := h
        unfold Buf.store at h
        split_ifs at h
        cases h; rfl
  unfold renormalization_range
  rw [if_pos ho]
  cases hc : cfor (upTo 0 z.length) (fun i (b : Buf ℕ ℝ) => (do
      let z ← ld z i
      let d ← ld d i
      b.store i (z + d) : CRes (Buf ℕ ℝ))) (cmalloc z.length) with
  | ok b =>
    obtain ⟨s1, s2, h⟩ := cfor_ok_all hc d.length (mem_upTo.2 ⟨by omega, hl⟩)
    rw [ld_get hl] at h
    unfold ld at h
    rw [List.getElem?_eq_none le_rfl] at h
    cases h
  | error e =>
    obtain rfl := cfor_error_only hbody _ _ hc
    rfl

end Coffe
