import Verif.Spec.Covariance
import Verif.Proofs.Grid
import Mathlib.Tactic.FieldSimp

namespace Coffe
open Classical

/-- A nest of five loops with a running counter. -/
theorem grid5 {α : Type} (A B C D E : ℕ) (g : ℕ → ℕ → ℕ → ℕ → ℕ → α)
    (body : ℕ → ℕ → ℕ → ℕ → ℕ → Buf ℕ α × ℕ → CRes (Buf ℕ α × ℕ))
    (size : ℕ) (hs : size = A * B * C * D * E)
    (hb : ∀ a < A, ∀ b < B, ∀ c < C, ∀ d < D, ∀ e < E, ∀ s, body a b c d e s = push (g a b c d e) s) :
    ∃ b, cfor (upTo 0 A) (fun i => cfor (upTo 0 B) fun j => cfor (upTo 0 C) fun k => cfor (upTo 0 D) fun l =>
        cfor (upTo 0 E) fun m => body i j k l m) (cmalloc size, 0) = .ok (b, size) ∧ (∀ p, b.dom p ↔ p < size) ∧
      ∀ i < A, ∀ j < B, ∀ k < C, ∀ l < D, ∀ m < E,
        b.val ((((i * B + j) * C + k) * D + l) * E + m) = some (g i j k l m) := by
  let l2 := (upTo 0 A).flatMap fun i => (upTo 0 B).map fun j => (i, j)
  let l3 := l2.flatMap fun p => (upTo 0 C).map fun k => (p, k)
  let l4 := l3.flatMap fun p => (upTo 0 D).map fun k => (p, k)
  let l5 := l4.flatMap fun p => (upTo 0 E).map fun k => (p, k)
  have hl : l5.length = size := by
    rw [hs]; simp only [l5, l4, l3, l2, length_pairs, length_upTo]
  have hm : ∀ q ∈ l5, q.1.1.1.1 < A ∧ q.1.1.1.2 < B ∧ q.1.1.2 < C ∧ q.1.2 < D ∧ q.2 < E := by
    intro q hq
    simp only [l5, l4, l3, l2, List.mem_flatMap, List.mem_map, mem_upTo] at hq
    obtain ⟨_, ⟨_, ⟨_, ⟨i, hi, j, hj, rfl⟩, k, hk, rfl⟩, l, hl, rfl⟩, m, hm, rfl⟩ := hq
    exact ⟨hi.2, hj.2, hk.2, hl.2, hm.2⟩
  have h1 : ∀ s, cfor (upTo 0 A) (fun i => cfor (upTo 0 B) fun j => cfor (upTo 0 C) fun k => cfor (upTo 0 D) fun l =>
        cfor (upTo 0 E) fun m => body i j k l m) s = cfor l5 (fun q => body q.1.1.1.1 q.1.1.1.2 q.1.1.2 q.1.2 q.2) s := by
    intro s
    rw [cfor_nest (upTo 0 A) (upTo 0 B) (fun i j => cfor (upTo 0 C) fun k => cfor (upTo 0 D) fun l =>
        cfor (upTo 0 E) fun m => body i j k l m)]
    refine (cfor_nest l2 (upTo 0 C) (fun (p : ℕ × ℕ) k => cfor (upTo 0 D) fun l =>
        cfor (upTo 0 E) fun m => body p.1 p.2 k l m) s).trans ?_
    refine (cfor_nest l3 (upTo 0 D) (fun (p : (ℕ × ℕ) × ℕ) l =>
        cfor (upTo 0 E) fun m => body p.1.1 p.1.2 p.2 l m) s).trans ?_
    exact cfor_nest l4 (upTo 0 E) (fun (p : ((ℕ × ℕ) × ℕ) × ℕ) m => body p.1.1.1 p.1.1.2 p.1.2 p.2 m) s
  obtain ⟨b, e, hd, hv, -⟩ := cfor_push l5 (fun q => g q.1.1.1.1 q.1.1.1.2 q.1.1.2 q.1.2 q.2)
    (fun q => body q.1.1.1.1 q.1.1.1.2 q.1.1.2 q.1.2 q.2)
    (cmalloc size) 0 (fun p _ hp => by rw [hl, Nat.zero_add] at hp; exact hp)
    fun q hq s => by
      obtain ⟨a1, a2, a3, a4, a5⟩ := hm q hq
      exact hb _ a1 _ a2 _ a3 _ a4 _ a5 s
  refine ⟨b, by rw [h1, e, hl, Nat.zero_add], fun p => by rw [hd]; rfl, fun i hi j hj k hk l hl' m hm' => ?_⟩
  have step : ∀ {α : Type} (L : List α) (n a c : ℕ) (x : α), L[a]? = some x → c < n →
      (L.flatMap fun y => (upTo 0 n).map fun b => (y, b))[a * n + c]? = some (x, c) := by
    intro α L n a c x hx hc
    obtain ⟨hlt, hx'⟩ := List.getElem?_eq_some_iff.1 hx
    rw [getElem?_pairs _ _ _ _ hlt hc, hx']
  have h0 : (upTo 0 A)[i]? = some i := by
    rw [List.getElem?_eq_getElem (by rwa [length_upTo]), getElem_upTo]
  have := step _ E _ m _ (step _ D _ l _ (step _ C _ k _ (step _ B _ j _ h0 hj) hk) hl') hm'
  obtain ⟨hlt', he⟩ := List.getElem?_eq_some_iff.1 this
  have := hv _ hlt'
  rw [Nat.zero_add] at this
  rw [this]
  exact congrArg some (by rw [he])

/-- Loops whose iterations succeed and keep the size of the buffer. -/
theorem cfor_dom {κ ι α : Type} (is : List κ) (body : κ → Buf ι α → CRes (Buf ι α)) (b : Buf ι α)
    (h : ∀ i ∈ is, ∀ c : Buf ι α, c.dom = b.dom → ∃ c', body i c = .ok c' ∧ c'.dom = b.dom) :
    ∃ c, cfor is body b = .ok c ∧ c.dom = b.dom := by
  suffices H : ∀ c : Buf ι α, c.dom = b.dom → ∃ c', cfor is body c = .ok c' ∧ c'.dom = b.dom from H b rfl
  induction is with
  | nil => exact fun c hc => ⟨c, rfl, hc⟩
  | cons i is ih =>
    intro c hc
    obtain ⟨c', e, hc'⟩ := h i (by simp) c hc
    simp only [cfor, e]
    exact ih (fun j hj => h j (by simp [hj])) c' hc'

/-! ## The tables -/

theorem div_row (L i j : ℕ) (h : j < L) : (i * L + j) / L = i ∧ (i * L + j) % L = j := by
  have hL : 0 < L := by omega
  exact ⟨by rw [mul_comm, Nat.mul_add_div hL, Nat.div_eq_of_lt h, Nat.add_zero],
    by rw [mul_comm, Nat.mul_add_mod, Nat.mod_eq_of_lt h]⟩

theorem row_lt (A L i j : ℕ) (hi : i < A) (h : j < L) : i * L + j < A * L := by
  calc i * L + j < i * L + L := by omega
    _ = (i + 1) * L := by ring
    _ ≤ A * L := Nat.mul_le_mul_right L hi

/-- The two-dimensional block `(r, i L + j, S n + m)`, `i ≤ j`. -/
def Upper (L S r : ℕ) (q : ℕ × ℕ × ℕ) : Prop :=
  q.1 = r ∧ q.2.1 < L * L ∧ q.2.2 < S * S ∧ q.2.1 / L ≤ q.2.1 % L

theorem fill_upper (L S r : ℕ) (raw : ℕ → ℕ → ℕ → ℕ → ℝ) (b : IBuf)
    (hd : ∀ q, q.1 = r → q.2.1 < L * L → q.2.2 < S * S → b.dom q)
    (body : ℕ → ℕ → ℕ → ℕ → IBuf → CRes IBuf)
    (hb : ∀ i < L, ∀ j < L, ∀ m < S, ∀ n < S, ∀ c : IBuf,
      body i j m n c = c.store (r, i * L + j, S * n + m) (raw i j m n)) :
    ∃ c, cfor (upTo 0 L) (fun i => cfor (upTo i L) fun j => cfor (upTo 0 S) fun m => cfor (upTo 0 S) fun n =>
        body i j m n) b = .ok c ∧
      b.Wrote (Upper L S r) (fun q => raw (q.2.1 / L) (q.2.1 % L) (q.2.2 % S) (q.2.2 / S)) c := by
  let g : ℕ × ℕ × ℕ → ℝ := fun q => raw (q.2.1 / L) (q.2.1 % L) (q.2.2 % S) (q.2.2 / S)
  obtain ⟨c, e, hw⟩ := cfor_regions (upTo 0 L)
    (fun i q => ∃ j ∈ upTo i L, ∃ m ∈ upTo 0 S, ∃ n ∈ upTo 0 S, q = (r, i * L + j, S * n + m)) g
    (fun i => cfor (upTo i L) fun j => cfor (upTo 0 S) fun m => cfor (upTo 0 S) fun n => body i j m n) b
    fun i hi c1 hc1 _ => by
      obtain ⟨c, e, hw⟩ := cfor_regions (upTo i L)
        (fun j q => ∃ m ∈ upTo 0 S, ∃ n ∈ upTo 0 S, q = (r, i * L + j, S * n + m)) g
        (fun j => cfor (upTo 0 S) fun m => cfor (upTo 0 S) fun n => body i j m n) c1
        fun j hj c2 hc2 _ => by
          obtain ⟨c, e, hw⟩ := cfor_regions (upTo 0 S) (fun m q => ∃ n ∈ upTo 0 S, q = (r, i * L + j, S * n + m)) g
            (fun m => cfor (upTo 0 S) fun n => body i j m n) c2
            fun m hm c3 hc3 _ => by
              obtain ⟨c, e, hw⟩ := cfor_regions (upTo 0 S) (fun n q => q = (r, i * L + j, S * n + m)) g
                (fun n => body i j m n) c3
                fun n hn c4 hc4 _ => by
                  have hi' := (mem_upTo.1 hi).2
                  have hj' := (mem_upTo.1 hj).2
                  have hm' := (mem_upTo.1 hm).2
                  have hn' := (mem_upTo.1 hn).2
                  have ev : g (r, i * L + j, S * n + m) = raw i j m n := by
                    simp only [g]
                    rw [(div_row L i j hj').1, (div_row L i j hj').2, mul_comm S n, (div_row S n m hm').1,
                      (div_row S n m hm').2]
                  rw [hb i hi' j hj' m hm' n hn' c4, ← ev]
                  refine c4.store_wrote _ g ?_
                  rw [hc4, hc3, hc2, hc1]
                  exact hd _ rfl (row_lt _ _ _ _ hi' hj') (by rw [mul_comm S n]; exact row_lt _ _ _ _ hn' hm')
              exact ⟨c, e, hw⟩
          exact ⟨c, e, hw⟩
      exact ⟨c, e, hw⟩
  refine ⟨c, e, hw.congr (fun q => ?_) fun _ _ => rfl⟩
  constructor
  · rintro ⟨i, hi, j, hj, m, hm, n, hn, rfl⟩
    have hi' := (mem_upTo.1 hi).2
    have hj' := mem_upTo.1 hj
    have hm' := (mem_upTo.1 hm).2
    have hn' := (mem_upTo.1 hn).2
    refine ⟨rfl, row_lt _ _ _ _ hi' hj'.2, ?_, ?_⟩
    · show S * n + m < S * S
      rw [mul_comm S n]; exact row_lt _ _ _ _ hn' hm'
    · show (i * L + j) / L ≤ (i * L + j) % L
      rw [(div_row L i j hj'.2).1, (div_row L i j hj'.2).2]; exact hj'.1
  · rcases q with ⟨r', a, d⟩
    rintro ⟨h1, h2, h3, h4⟩
    dsimp only at h1 h2 h3 h4
    subst h1
    have hL : 0 < L := Nat.pos_of_ne_zero (by rintro rfl; simp at h2)
    have hS : 0 < S := Nat.pos_of_ne_zero (by rintro rfl; simp at h3)
    have hm := Nat.mod_lt a hL
    refine ⟨a / L, mem_upTo.2 ⟨Nat.zero_le _, by omega⟩, a % L, mem_upTo.2 ⟨h4, hm⟩, d % S,
      mem_upTo.2 ⟨Nat.zero_le _, Nat.mod_lt _ hS⟩, d / S, mem_upTo.2 ⟨Nat.zero_le _, Nat.div_lt_of_lt_mul h3⟩, ?_⟩
    rw [Nat.div_add_mod', Nat.div_add_mod]

theorem copy_wrote {ι α : Type} (b : Buf ι α) (dst src : ι) (g : ι → α) (h1 : b.dom src) (h2 : b.dom dst)
    (h3 : b.val src = some (g dst)) : ∃ c, b.copy dst src = .ok c ∧ b.Wrote (· = dst) g c := by
  refine ⟨⟨b.dom, Function.update b.val dst (b.val src)⟩, by rw [Buf.copy, if_pos ⟨h1, h2⟩], rfl, ?_, ?_⟩
  · rintro p rfl; simp [h3]
  · intro p hp; exact Function.update_of_ne hp _ _

/-- The lower block. -/
def Lower (L S R : ℕ) (q : ℕ × ℕ × ℕ) : Prop :=
  q.1 < R ∧ q.2.1 < L * L ∧ q.2.2 < S * S ∧ q.2.1 % L < q.2.1 / L

theorem transpose_wrote (p : CovPar) (R : ℕ) (b : IBuf) (raw : ℕ → ℕ → ℕ → ℕ → ℕ → ℝ)
    (hd : ∀ q : ℕ × ℕ × ℕ, q.1 < R → q.2.1 < p.multipole_values.length * p.multipole_values.length →
      q.2.2 < p.sep.length * p.sep.length → b.dom q)
    (hv : ∀ r < R, ∀ i < p.multipole_values.length, ∀ j < p.multipole_values.length, i ≤ j → ∀ m < p.sep.length,
      ∀ n < p.sep.length, b.val (r, i * p.multipole_values.length + j, p.sep.length * n + m) = some (raw r i j m n)) :
    ∃ c, fill_transpose p R b = .ok c ∧ b.Wrote (Lower p.multipole_values.length p.sep.length R)
      (fun q => raw q.1 (q.2.1 % p.multipole_values.length) (q.2.1 / p.multipole_values.length)
        (q.2.2 / p.sep.length) (q.2.2 % p.sep.length)) c := by
  unfold fill_transpose
  set L := p.multipole_values.length
  set S := p.sep.length
  let g : ℕ × ℕ × ℕ → ℝ := fun q => raw q.1 (q.2.1 % L) (q.2.1 / L) (q.2.2 / S) (q.2.2 % S)
  -- cells of the upper half are never written
  have up : ∀ (r i j : ℕ), i < L → j ≤ i → ∀ k, (r, j * L + i, k) ∉ {q : ℕ × ℕ × ℕ | ∃ r i j m n : ℕ,
      i < L ∧ j < i ∧ q = (r, i * L + j, S * n + m)} := by
    rintro r i j hi hj k ⟨r', i', j', m, n, h1, h2, h3⟩
    simp only [Prod.mk.injEq] at h3
    have e1 := div_row L j i hi
    have e2 := div_row L i' j' (by omega)
    rw [h3.2.1] at e1
    omega
  obtain ⟨c, e, hw⟩ := cfor_regions (upTo 0 R)
    (fun r q => ∃ i ∈ upTo 0 L, ∃ j ∈ upTo 0 i, ∃ m ∈ upTo 0 S, ∃ n ∈ upTo 0 S, q = (r, i * L + j, S * n + m)) g
    (fun r => cfor (upTo 0 L) fun i => cfor (upTo 0 i) fun j => cfor (upTo 0 S) fun m => cfor (upTo 0 S) fun n b =>
      b.copy (r, i * L + j, S * n + m) (r, j * L + i, S * m + n)) b
    fun r hr c1 hc1 k1 => by
      obtain ⟨c, e, hw⟩ := cfor_regions (upTo 0 L)
        (fun i q => ∃ j ∈ upTo 0 i, ∃ m ∈ upTo 0 S, ∃ n ∈ upTo 0 S, q = (r, i * L + j, S * n + m)) g
        (fun i => cfor (upTo 0 i) fun j => cfor (upTo 0 S) fun m => cfor (upTo 0 S) fun n b =>
          b.copy (r, i * L + j, S * n + m) (r, j * L + i, S * m + n)) c1
        fun i hi c2 hc2 k2 => by
          obtain ⟨c, e, hw⟩ := cfor_regions (upTo 0 i)
            (fun j q => ∃ m ∈ upTo 0 S, ∃ n ∈ upTo 0 S, q = (r, i * L + j, S * n + m)) g
            (fun j => cfor (upTo 0 S) fun m => cfor (upTo 0 S) fun n b =>
              b.copy (r, i * L + j, S * n + m) (r, j * L + i, S * m + n)) c2
            fun j hj c3 hc3 k3 => by
              obtain ⟨c, e, hw⟩ := cfor_regions (upTo 0 S) (fun m q => ∃ n ∈ upTo 0 S, q = (r, i * L + j, S * n + m)) g
                (fun m => cfor (upTo 0 S) fun n b => b.copy (r, i * L + j, S * n + m) (r, j * L + i, S * m + n)) c3
                fun m hm c4 hc4 k4 => by
                  obtain ⟨c, e, hw⟩ := cfor_regions (upTo 0 S) (fun n q => q = (r, i * L + j, S * n + m)) g
                    (fun n b => b.copy (r, i * L + j, S * n + m) (r, j * L + i, S * m + n)) c4
                    fun n hn c5 hc5 k5 => by
                      have hr' := (mem_upTo.1 hr).2
                      have hi' := (mem_upTo.1 hi).2
                      have hj' := (mem_upTo.1 hj).2
                      have hm' := (mem_upTo.1 hm).2
                      have hn' := (mem_upTo.1 hn).2
                      have ev : g (r, i * L + j, S * n + m) = raw r j i n m := by
                        simp only [g]
                        rw [(div_row L i j (by omega)).1, (div_row L i j (by omega)).2, mul_comm S n,
                          (div_row S n m hm').1, (div_row S n m hm').2]
                      have not1 : ∀ (r' i' j' m' n' : ℕ), i' ∈ upTo 0 L → j' ∈ upTo 0 i' →
                          (r, j * L + i, S * m + n) ≠ (r', i' * L + j', S * n' + m') := by
                        intro r' i' j' m' n' h1 h2 h3
                        exact up r i j hi' (by omega) (S * m + n) ⟨r', i', j', m', n', (mem_upTo.1 h1).2, (mem_upTo.1 h2).2, h3⟩
                      have src : c5.val (r, j * L + i, S * m + n) = some (g (r, i * L + j, S * n + m)) := by
                        rw [ev, k5 _ (fun n' _ h => not1 _ _ _ _ _ hi hj h), k4 _ (by
                            rintro m' _ ⟨n', _, h⟩; exact not1 _ _ _ _ _ hi hj h), k3 _ (by
                            rintro j' h2 ⟨m', _, n', _, h⟩; exact not1 _ _ _ _ _ hi h2 h), k2 _ (by
                            rintro i' h1 ⟨j', h2, m', _, n', _, h⟩; exact not1 _ _ _ _ _ h1 h2 h), k1 _ (by
                            rintro r' _ ⟨i', h1, j', h2, m', _, n', _, h⟩; exact not1 _ _ _ _ _ h1 h2 h)]
                        exact hv r hr' j (by omega) i hi' (by omega) n hn' m hm'
                      have dd : c5.dom = b.dom := by rw [hc5, hc4, hc3, hc2, hc1]
                      refine copy_wrote c5 _ _ g ?_ ?_ src
                      · rw [dd]
                        exact hd _ hr' (row_lt _ _ _ _ (by omega) hi') (by
                          show S * m + n < S * S
                          rw [mul_comm S m]; exact row_lt _ _ _ _ hm' hn')
                      · rw [dd]
                        exact hd _ hr' (row_lt _ _ _ _ hi' (by omega)) (by
                          show S * n + m < S * S
                          rw [mul_comm S n]; exact row_lt _ _ _ _ hn' hm')
                  exact ⟨c, e, hw⟩
              exact ⟨c, e, hw⟩
          exact ⟨c, e, hw⟩
      exact ⟨c, e, hw⟩
  refine ⟨c, e, hw.congr (fun q => ?_) fun _ _ => rfl⟩
  constructor
  · rintro ⟨r, hr, i, hi, j, hj, m, hm, n, hn, rfl⟩
    have hi' := (mem_upTo.1 hi).2
    have hj' := (mem_upTo.1 hj).2
    have hm' := (mem_upTo.1 hm).2
    have hn' := (mem_upTo.1 hn).2
    refine ⟨(mem_upTo.1 hr).2, row_lt _ _ _ _ hi' (by omega), ?_, ?_⟩
    · show S * n + m < S * S
      rw [mul_comm S n]; exact row_lt _ _ _ _ hn' hm'
    · show (i * L + j) % L < (i * L + j) / L
      rw [(div_row L i j (by omega)).1, (div_row L i j (by omega)).2]; exact hj'
  · rcases q with ⟨r', a, d⟩
    rintro ⟨h1, h2, h3, h4⟩
    dsimp only at h1 h2 h3 h4
    have hL : 0 < L := Nat.pos_of_ne_zero (by intro h; rw [h] at h2; simp at h2)
    have hS : 0 < S := Nat.pos_of_ne_zero (by intro h; rw [h] at h3; simp at h3)
    refine ⟨r', mem_upTo.2 ⟨Nat.zero_le _, h1⟩, a / L, mem_upTo.2 ⟨Nat.zero_le _, Nat.div_lt_of_lt_mul h2⟩, a % L,
      mem_upTo.2 ⟨Nat.zero_le _, h4⟩, d % S,
      mem_upTo.2 ⟨Nat.zero_le _, Nat.mod_lt _ hS⟩, d / S, mem_upTo.2 ⟨Nat.zero_le _, Nat.div_lt_of_lt_mul h3⟩, ?_⟩
    rw [Nat.div_add_mod', Nat.div_add_mod]

theorem transpose_dom (p : CovPar) (R : ℕ) (b : IBuf)
    (hd : ∀ q : ℕ × ℕ × ℕ, q.1 < R → q.2.1 < p.multipole_values.length * p.multipole_values.length →
      q.2.2 < p.sep.length * p.sep.length → b.dom q) :
    ∃ c, fill_transpose p R b = .ok c ∧ c.dom = b.dom := by
  unfold fill_transpose
  refine cfor_dom _ _ b fun r hr c1 hc1 => ?_
  rw [← hc1]; refine cfor_dom _ _ c1 fun i hi c2 hc2 => ?_
  rw [← hc2]; refine cfor_dom _ _ c2 fun j hj c3 hc3 => ?_
  rw [← hc3]; refine cfor_dom _ _ c3 fun m hm c4 hc4 => ?_
  rw [← hc4]; refine cfor_dom _ _ c4 fun n hn c5 hc5 => ?_
  have hr' := (mem_upTo.1 hr).2
  have hi' := (mem_upTo.1 hi).2
  have hj' := (mem_upTo.1 hj).2
  have hm' := (mem_upTo.1 hm).2
  have hn' := (mem_upTo.1 hn).2
  have hs : c5.dom (r, j * p.multipole_values.length + i, p.sep.length * m + n) ∧
      c5.dom (r, i * p.multipole_values.length + j, p.sep.length * n + m) := by
    rw [hc5, hc4, hc3, hc2, hc1]
    constructor
    · exact hd _ hr' (row_lt _ _ _ _ (by omega) hi') (by
        show p.sep.length * m + n < p.sep.length * p.sep.length
        rw [mul_comm _ m]; exact row_lt _ _ _ _ hm' hn')
    · exact hd _ hr' (row_lt _ _ _ _ hi' (by omega)) (by
        show p.sep.length * n + m < p.sep.length * p.sep.length
        rw [mul_comm _ n]; exact row_lt _ _ _ _ hn' hm')
  exact ⟨_, if_pos hs, hc5⟩

/-- A complete table. -/
theorem table_ok (p : CovPar) (R : ℕ) (raw : ℕ → ℕ → ℕ → ℕ → ℕ → ℝ) (fill : ℕ → IBuf → CRes IBuf)
    (hf : ∀ r < R, ∀ b : IBuf, (∀ q : ℕ × ℕ × ℕ, q.1 = r → q.2.1 < p.multipole_values.length * p.multipole_values.length →
        q.2.2 < p.sep.length * p.sep.length → b.dom q) →
      ∃ c, fill r b = .ok c ∧ b.Wrote (Upper p.multipole_values.length p.sep.length r)
        (fun q => raw r (q.2.1 / p.multipole_values.length) (q.2.1 % p.multipole_values.length) (q.2.2 % p.sep.length)
          (q.2.2 / p.sep.length)) c) :
    ∃ b c, cfor (upTo 0 R) fill (alloc_integral R p.multipole_values.length p.sep.length) = .ok b ∧
      fill_transpose p R b = .ok c ∧
      ∀ r < R, ∀ i < p.multipole_values.length, ∀ j < p.multipole_values.length, ∀ m < p.sep.length, ∀ n < p.sep.length,
        c.load (r, i * p.multipole_values.length + j, p.sep.length * n + m) =
          .ok (if i ≤ j then raw r i j m n else raw r j i n m) := by
  obtain ⟨b, e, hdom, hw, -⟩ := cfor_regions (upTo 0 R) (fun r => Upper p.multipole_values.length p.sep.length r)
    (fun q => raw q.1 (q.2.1 / p.multipole_values.length) (q.2.1 % p.multipole_values.length) (q.2.2 % p.sep.length)
      (q.2.2 / p.sep.length)) fill (alloc_integral R p.multipole_values.length p.sep.length) fun r hr c hc _ => by
    obtain ⟨c', e, hw⟩ := hf r (mem_upTo.1 hr).2 c fun q h1 h2 h3 => by
      rw [hc]
      exact ⟨by rw [h1]; exact (mem_upTo.1 hr).2, h2, h3⟩
    exact ⟨c', e, hw.congr (fun _ => Iff.rfl) fun q hq => by rw [hq.1]⟩
  have bd : ∀ q : ℕ × ℕ × ℕ, q.1 < R → q.2.1 < p.multipole_values.length * p.multipole_values.length →
      q.2.2 < p.sep.length * p.sep.length → b.dom q := fun q h1 h2 h3 => by rw [hdom]; exact ⟨h1, h2, h3⟩
  have bv : ∀ r < R, ∀ i < p.multipole_values.length, ∀ j < p.multipole_values.length, i ≤ j → ∀ m < p.sep.length,
      ∀ n < p.sep.length, b.val (r, i * p.multipole_values.length + j, p.sep.length * n + m) = some (raw r i j m n) := by
    intro r hr i hi j hj hij m hm n hn
    have e1 := div_row p.multipole_values.length i j hj
    have e2 := div_row p.sep.length n m hm
    rw [hw _ ⟨r, mem_upTo.2 ⟨Nat.zero_le _, hr⟩, rfl, row_lt _ _ _ _ hi hj, by
      show p.sep.length * n + m < p.sep.length * p.sep.length
      rw [mul_comm _ n]; exact row_lt _ _ _ _ hn hm, by
      show (i * p.multipole_values.length + j) / p.multipole_values.length ≤ (i * p.multipole_values.length + j) % p.multipole_values.length
      rw [e1.1, e1.2]; exact hij⟩]
    dsimp only
    rw [mul_comm p.sep.length n, e1.1, e1.2, e2.1, e2.2]
  obtain ⟨c, e', cdom, cw, cr⟩ := transpose_wrote p R b raw bd bv
  refine ⟨b, c, e, e', fun r hr i hi j hj m hm n hn => ?_⟩
  have e1 := div_row p.multipole_values.length i j hj
  have e2 := div_row p.sep.length n m hm
  have hlt : p.sep.length * n + m < p.sep.length * p.sep.length := by
    rw [mul_comm _ n]; exact row_lt _ _ _ _ hn hm
  refine Buf.load_eq.2 ⟨by rw [cdom]; exact bd _ hr (row_lt _ _ _ _ hi hj) hlt, ?_⟩
  by_cases hij : i ≤ j
  · rw [if_pos hij, cr _ (by
      rintro ⟨-, -, -, h⟩
      dsimp only at h
      rw [e1.1, e1.2] at h; omega)]
    exact bv r hr i hi j hj hij m hm n hn
  · rw [if_neg hij, cw _ ⟨hr, row_lt _ _ _ _ hi hj, hlt, by
      dsimp only
      rw [e1.1, e1.2]; omega⟩]
    dsimp only
    rw [mul_comm p.sep.length n, e1.1, e1.2, e2.1, e2.2]

/-- Contents of a table filled by the standard method. -/
noncomputable def rawStandard (p : CovPar) (E : CovNum) (P : ℕ → ℝ → ℝ) (c : ℝ) (r i j m n : ℕ) : ℝ :=
  (2 * ((p.multipole_values.getD i 0 : ℕ) : ℝ) + 1) * (2 * ((p.multipole_values.getD j 0 : ℕ) : ℝ) + 1)
    * covariance_integral E r (P r) (p.sep.getD m 0) (p.sep.getD n 0)
      (if p.covariance_window then p.pixelsize.getD r 0 else 0) (if p.covariance_window then p.pixelsize.getD r 0 else 0)
      (p.multipole_values.getD i 0) (p.multipole_values.getD j 0) / c / Real.pi

/-- Contents of a table filled by FFTLog. -/
noncomputable def rawFFT (p : CovPar) (E : CovNum) (power : ℕ) (c : ℝ) (_r i j m n : ℕ) : ℝ :=
  E.fft power (p.multipole_values.getD i 0) (p.multipole_values.getD j 0) (p.sep.getD m 0) (p.sep.getD n 0)
    * ((2 * ((p.multipole_values.getD i 0 : ℕ) : ℝ) + 1) * (2 * ((p.multipole_values.getD j 0 : ℕ) : ℝ) + 1) * c
      / Real.pi / Real.pi)

theorem fill_standard_on (p : CovPar) (E : CovNum) (P : ℕ → ℝ → ℝ) (c : ℝ) (r : ℕ)
    (hp : p.covariance_window = true → r < p.pixelsize.length) (b : IBuf)
    (hd : ∀ q : ℕ × ℕ × ℕ, q.1 = r → q.2.1 < p.multipole_values.length * p.multipole_values.length →
        q.2.2 < p.sep.length * p.sep.length → b.dom q) :
    ∃ b', fill_standard p E r (P r) true c b = .ok b' ∧ b.Wrote (Upper p.multipole_values.length p.sep.length r)
        (fun q => rawStandard p E P c r (q.2.1 / p.multipole_values.length) (q.2.1 % p.multipole_values.length) (q.2.2 % p.sep.length)
          (q.2.2 / p.sep.length)) b' := by
  refine fill_upper _ _ r (rawStandard p E P c r) b hd _ fun i hi j hj m hm n hn b' => ?_
  rw [if_pos rfl]
  simp only [ld_getD 0 hi, ld_getD 0 hj, ld_getD 0 hm, ld_getD 0 hn]
  by_cases hw : p.covariance_window = true
  · simp only [hw, if_true, ld_getD 0 (hp hw), bind, Except.bind, rawStandard]
  · simp only [hw, if_false, Bool.false_eq_true, bind, Except.bind, rawStandard, pure, Except.pure]

theorem fill_standard_off (p : CovPar) (E : CovNum) (r : ℕ) (P : ℝ → ℝ) (c : ℝ) (b : IBuf) :
    fill_standard p E r P false c b = .ok b := by
  have key : ∀ {κ : Type} (is : List κ) (body : κ → IBuf → CRes IBuf), (∀ i b, body i b = .ok b) → ∀ b, cfor is body b = .ok b := by
    intro κ is body h b
    induction is generalizing b with
    | nil => rfl
    | cons i is ih => simp only [cfor, h]; exact ih b
  unfold fill_standard
  exact key _ _ (fun i b => key _ _ (fun j b => key _ _ (fun m b => key _ _ (fun n b => by simp) b) b) b) b

theorem fill_fftlog_on (p : CovPar) (E : CovNum) (power : ℕ) (c : ℝ) (r : ℕ) (b : IBuf)
    (hd : ∀ q : ℕ × ℕ × ℕ, q.1 = r → q.2.1 < p.multipole_values.length * p.multipole_values.length →
        q.2.2 < p.sep.length * p.sep.length → b.dom q) :
    ∃ b', fill_fftlog p E r power c b = .ok b' ∧ b.Wrote (Upper p.multipole_values.length p.sep.length r)
        (fun q => rawFFT p E power c r (q.2.1 / p.multipole_values.length) (q.2.1 % p.multipole_values.length) (q.2.2 % p.sep.length)
          (q.2.2 / p.sep.length)) b' := by
  refine fill_upper _ _ r (rawFFT p E power c r) b hd _ fun i hi j hj m hm n hn b' => ?_
  simp only [ld_getD 0 hi, ld_getD 0 hj, ld_getD 0 hm, ld_getD 0 hn, bind, Except.bind, rawFFT]

/-- Contents of the first (`power = 1`) and second table. -/
noncomputable def rawTable (p : CovPar) (E : CovNum) (power : ℕ) : ℕ → ℕ → ℕ → ℕ → ℕ → ℝ :=
  if p.fftlog then rawFFT p E power (if power = 1 then 2 else 1)
  else rawStandard p E (if power = 1 then E.pk else E.pk2) (if power = 1 then 1 else 2)

/-- Number of spectra. -/
def CovPar.spectra (p : CovPar) : ℕ := if p.pk_linear then 1 else p.z_mean.length

theorem one_table (p : CovPar) (E : CovNum) (power : ℕ) (on : Bool)
    (hp : p.covariance_window = true → p.fftlog = false → on = true → p.spectra ≤ p.pixelsize.length)
    (fill : ℕ → IBuf → CRes IBuf)
    (hfill : fill = fun r a => if p.fftlog then fill_fftlog p E r power (if power = 1 then 2 else 1) a
      else fill_standard p E r ((if power = 1 then E.pk else E.pk2) r) on (if power = 1 then 1 else 2) a) :
    ∃ b c, cfor (upTo 0 p.spectra) fill (alloc_integral p.spectra p.multipole_values.length p.sep.length) = .ok b ∧
      fill_transpose p p.spectra b = .ok c ∧
      (on = true → ∀ r < p.spectra, ∀ i < p.multipole_values.length, ∀ j < p.multipole_values.length, ∀ m < p.sep.length,
        ∀ n < p.sep.length, c.load (r, i * p.multipole_values.length + j, p.sep.length * n + m) =
          .ok (if i ≤ j then rawTable p E power r i j m n else rawTable p E power r j i n m)) := by
  subst hfill
  by_cases hf : p.fftlog = true
  · obtain ⟨b, c, e, e', h⟩ := table_ok p p.spectra (rawTable p E power)
      (fun r a => if p.fftlog then fill_fftlog p E r power (if power = 1 then 2 else 1) a
        else fill_standard p E r ((if power = 1 then E.pk else E.pk2) r) on (if power = 1 then 1 else 2) a)
      (fun r _ b hd => by
        rw [if_pos hf]
        have := fill_fftlog_on p E power (if power = 1 then 2 else 1) r b hd
        simpa only [rawTable, hf, if_true] using this)
    exact ⟨b, c, e, e', fun _ => h⟩
  · cases on with
    | true =>
      obtain ⟨b, c, e, e', h⟩ := table_ok p p.spectra (rawTable p E power)
        (fun r a => if p.fftlog then fill_fftlog p E r power (if power = 1 then 2 else 1) a
          else fill_standard p E r ((if power = 1 then E.pk else E.pk2) r) true (if power = 1 then 1 else 2) a)
        (fun r hr b hd => by
          rw [if_neg hf]
          have := fill_standard_on p E (if power = 1 then E.pk else E.pk2) (if power = 1 then 1 else 2) r
            (fun hw => lt_of_lt_of_le hr (hp hw (by simpa using hf) rfl)) b hd
          simpa only [rawTable, hf, if_false, Bool.false_eq_true] using this)
      exact ⟨b, c, e, e', fun _ => h⟩
    | false =>
      have e : cfor (upTo 0 p.spectra) (fun r a => if p.fftlog then fill_fftlog p E r power (if power = 1 then 2 else 1) a
          else fill_standard p E r ((if power = 1 then E.pk else E.pk2) r) false (if power = 1 then 1 else 2) a)
          (alloc_integral p.spectra p.multipole_values.length p.sep.length) =
          .ok (alloc_integral p.spectra p.multipole_values.length p.sep.length) := by
        have key : ∀ (is : List ℕ) (b : IBuf), cfor is (fun r a => if p.fftlog then fill_fftlog p E r power (if power = 1 then 2 else 1) a
            else fill_standard p E r ((if power = 1 then E.pk else E.pk2) r) false (if power = 1 then 1 else 2) a) b = .ok b := by
          intro is b
          induction is with
          | nil => rfl
          | cons i is ih => simp only [cfor, if_neg hf, fill_standard_off]; simpa only [if_neg hf, fill_standard_off] using ih
        exact key _ _
      obtain ⟨c, e', -⟩ := transpose_dom p p.spectra (alloc_integral p.spectra p.multipole_values.length p.sep.length)
        fun q h1 h2 h3 => ⟨h1, h2, h3⟩
      exact ⟨_, c, e, e', fun h => by simp at h⟩

theorem tables_ok (p : CovPar) (E : CovNum)
    (hp : p.covariance_window = true → p.fftlog = false → p.spectra ≤ p.pixelsize.length) :
    ∃ A B, integral_tables p E = .ok (A, B) ∧
      (p.covariance_mixed = true → ∀ r < p.spectra, ∀ i < p.multipole_values.length, ∀ j < p.multipole_values.length,
        ∀ m < p.sep.length, ∀ n < p.sep.length, A.load (r, i * p.multipole_values.length + j, p.sep.length * n + m) =
          .ok (if i ≤ j then rawTable p E 1 r i j m n else rawTable p E 1 r j i n m)) ∧
      (p.covariance_cosmic = true → ∀ r < p.spectra, ∀ i < p.multipole_values.length, ∀ j < p.multipole_values.length,
        ∀ m < p.sep.length, ∀ n < p.sep.length, B.load (r, i * p.multipole_values.length + j, p.sep.length * n + m) =
          .ok (if i ≤ j then rawTable p E 2 r i j m n else rawTable p E 2 r j i n m)) := by
  obtain ⟨a, A, e1, e2, h1⟩ := one_table p E 1 p.covariance_mixed (fun h h' _ => hp h h') _ rfl
  obtain ⟨b, B, e3, e4, h2⟩ := one_table p E 2 p.covariance_cosmic (fun h h' _ => hp h h') _ rfl
  refine ⟨A, B, ?_, h1, h2⟩
  simp only [if_true, OfNat.ofNat_ne_one, if_false] at e1 e3
  unfold integral_tables
  unfold CovPar.spectra at e1 e2 e3 e4
  dsimp only
  simp only [e1, e3, e2, e4, bind, Except.bind, pure, Except.pure]

end Coffe
