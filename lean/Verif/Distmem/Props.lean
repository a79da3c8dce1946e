import Verif.Distmem.Model
import Mathlib.Algebra.BigOperators.Ring.Finset
import Mathlib.Algebra.BigOperators.Fin
import Mathlib.Algebra.Order.BigOperators.Group.Finset
import Mathlib.Algebra.Order.Floor.Ring
import Mathlib.Algebra.Order.Archimedean.Real.Basic
import Mathlib.Tactic.Ring
import Mathlib.Tactic.Linarith
import Mathlib.Tactic.NormNum
import Mathlib.Tactic.Abel
import Mathlib.Tactic.FieldSimp

/-!
# C27 (decomposition), C28 (source region), C29 (exchange)
-/
namespace LCP.Distmem
open Finset

/-! ### C27 -/

theorem bfr_eq {nx rank size : ℕ} (h : rank < size) : rank * getDevNx nx 0 size = rank * (nx / size) := by
  unfold getDevNx
  by_cases h1 : size = 1
  · have : rank = 0 := by omega
    simp [this]
  · rw [if_pos (by omega)]

/-- **C27** The columns `nxBfr, ..., nxBfr + nx - 1` of the parts are contiguous — the first part starts at column 0, each next part
starts where the previous one ends, the last one ends at column `nx` — so every column belongs to exactly one part. -/
theorem partition_contiguous {nx size : ℕ} (hs : 0 < size) :
    0 * getDevNx nx 0 size = 0 ∧
    (∀ rank, rank + 1 < size → rank * getDevNx nx 0 size + getDevNx nx rank size = (rank + 1) * getDevNx nx 0 size) ∧
    (size - 1) * getDevNx nx 0 size + getDevNx nx (size - 1) size = nx := by
  refine ⟨by simp, ?_, ?_⟩
  · intro rank h
    rw [bfr_eq (by omega), bfr_eq h]
    unfold getDevNx
    rw [if_pos (by omega)]; ring
  · rw [bfr_eq (by omega)]
    unfold getDevNx
    rw [if_neg (by omega)]
    have : (size - 1) * (nx / size) ≤ nx :=
      le_trans (Nat.mul_le_mul_right _ (show size - 1 ≤ size by omega)) (by rw [Nat.mul_comm]; exact Nat.div_mul_le_self nx size)
    omega

/-- **C27** Every column is in exactly one part. -/
theorem partition_exact {nx size col : ℕ} (hs : 0 < size) (hcol : col < nx) :
    ∃! rank, rank < size ∧ rank * getDevNx nx 0 size ≤ col ∧ col < rank * getDevNx nx 0 size + getDevNx nx rank size := by
  obtain ⟨_, hstep, hlast⟩ := partition_contiguous (nx := nx) hs
  have hex : ∀ k, k < size → col < k * getDevNx nx 0 size + getDevNx nx k size →
      ∃ rank, rank ≤ k ∧ rank * getDevNx nx 0 size ≤ col ∧ col < rank * getDevNx nx 0 size + getDevNx nx rank size := by
    intro k
    induction k with
    | zero => intro _ h; exact ⟨0, le_rfl, by simp, h⟩
    | succ k ih =>
      intro hk h
      by_cases hc : (k + 1) * getDevNx nx 0 size ≤ col
      · exact ⟨k + 1, le_rfl, hc, h⟩
      · obtain ⟨r, h1, h2⟩ := ih (by omega) (by rw [hstep k hk]; omega)
        exact ⟨r, by omega, h2⟩
  obtain ⟨r, h1, h2, h3⟩ := hex (size - 1) (by omega) (by omega)
  refine ⟨r, ⟨by omega, h2, h3⟩, ?_⟩
  rintro r' ⟨h1', h2', h3'⟩
  have mono : ∀ a b, a < b → b < size → a * getDevNx nx 0 size + getDevNx nx a size ≤ b * getDevNx nx 0 size := by
    intro a b hab hb
    rw [hstep a (by omega)]
    exact Nat.mul_le_mul_right _ hab
  rcases lt_trichotomy r r' with h | h | h
  · have := mono r r' h h1'; omega
  · exact h.symm
  · have := mono r' r h (by omega); omega

/-- **C27** With at least as many columns as devices every part has a column. -/
theorem partition_nonempty {nx rank size : ℕ} (hr : rank < size) (h : size ≤ nx) : 0 < getDevNx nx rank size := by
  have h1 : 1 ≤ nx / size := (Nat.one_le_div_iff (by omega)).2 h
  unfold getDevNx
  split_ifs with hc
  · exact h1
  · have e : rank = size - 1 := by omega
    have : (size - 1) * (nx / size) + nx / size ≤ nx := by
      have : (size - 1) * (nx / size) + nx / size = size * (nx / size) := by
        rw [← Nat.succ_mul]; congr 1; omega
      rw [this, Nat.mul_comm]; exact Nat.div_mul_le_self nx size
    rw [e]; omega

/-- **C27** All parts together have all the columns. -/
theorem partition_sum {nx size : ℕ} (hs : 0 < size) : ∑ rank ∈ range size, getDevNx nx rank size = nx := by
  obtain ⟨_, hstep, hlast⟩ := partition_contiguous (nx := nx) hs
  have key : ∀ k, k < size → ∑ rank ∈ range k, getDevNx nx rank size = k * getDevNx nx 0 size := by
    intro k
    induction k with
    | zero => intro _; simp
    | succ k ih => intro hk; rw [sum_range_succ, ih (by omega), hstep k hk]
  obtain ⟨k, rfl⟩ : ∃ k, size = k + 1 := ⟨size - 1, by omega⟩
  rw [sum_range_succ, key k (by omega)]
  simpa using hlast

example : (List.range 4).map (fun r => (r * getDevNx 10 0 4, getDevNx 10 r 4)) = [(0, 2), (2, 2), (4, 2), (6, 4)] := by decide

/-! ### C28 -/

section source
variable {nx size : ℕ} {dx x0 x1 s0 s1 : ℝ}

/-- left and right edge of part `r` in the coordinates of the whole domain -/
noncomputable def lo (nx : ℕ) (dx x0 : ℝ) (size r : ℕ) : ℝ := if r ≠ 0 then (r * (nx / size : ℕ) : ℕ) * dx else x0
noncomputable def hi (nx : ℕ) (dx x1 : ℝ) (size r : ℕ) : ℝ :=
  if r ≠ size - 1 then ((r + 1) * (nx / size : ℕ) : ℕ) * dx else x1

theorem opts_edges {r : ℕ} (hr : r < size) :
    let P := distmemOpts nx dx x0 x1 s0 s1 r size
    P.nxBfr = r * (nx / size) ∧ P.x0 + P.nxBfr * dx = lo nx dx x0 size r ∧ P.x1 + P.nxBfr * dx = hi nx dx x1 size r := by
  intro P
  have hb := bfr_eq (nx := nx) hr
  have hP : P.nxBfr = r * (nx / size) ∧ P.x0 = (if r ≠ 0 then 0 else x0) ∧
      P.x1 = (if r ≠ size - 1 then (getDevNx nx r size : ℝ) * dx else x1 - (r * (nx / size) : ℕ) * dx) := by
    simp only [P, distmemOpts, hb]
    split_ifs <;> simp
  obtain ⟨h1, h2, h3⟩ := hP
  refine ⟨h1, ?_, ?_⟩
  · rw [h1, h2]; unfold lo
    by_cases h : r = 0
    · subst h; simp
    · rw [if_pos h, if_pos h]; simp
  · rw [h1, h3]; unfold hi
    by_cases h : r = size - 1
    · rw [if_neg (by simp [h]), if_neg (by simp [h])]; ring
    · rw [if_pos h, if_pos h]
      unfold getDevNx
      rw [if_pos (by omega)]
      push_cast; ring

theorem opts_cases (nx : ℕ) (dx x0 x1 s0 s1 : ℝ) (r size : ℕ) :
    let P := distmemOpts nx dx x0 x1 s0 s1 r size
    (s1 - P.nxBfr * dx ≤ P.x0 ∨ s0 - P.nxBfr * dx ≥ P.x1) ∧ P.srcX0 = 0 ∧ P.srcX1 = 0 ∨
      ¬ (s1 - P.nxBfr * dx ≤ P.x0 ∨ s0 - P.nxBfr * dx ≥ P.x1) ∧
        P.srcX0 = (if s0 - P.nxBfr * dx < P.x0 then P.x0 else s0 - P.nxBfr * dx) ∧
        P.srcX1 = (if s1 - P.nxBfr * dx > P.x1 then P.x1 else s1 - P.nxBfr * dx) := by
  intro P
  have hP : P = distmemOpts nx dx x0 x1 s0 s1 r size := rfl
  unfold distmemOpts at hP
  dsimp only at hP
  generalize hB : r * getDevNx nx 0 size = B at hP
  generalize hN : getDevNx nx r size = N at hP
  generalize hX0 : (if r ≠ 0 then (0 : ℝ) else x0) = X0 at hP
  generalize hX1 : (if r ≠ size - 1 then (N : ℝ) * dx else x1 - (B : ℝ) * dx) = X1 at hP
  clear_value P
  by_cases hc : s1 - (B : ℝ) * dx ≤ X0 ∨ s0 - (B : ℝ) * dx ≥ X1
  · rw [if_pos hc] at hP
    subst hP
    exact Or.inl ⟨hc, rfl, rfl⟩
  · rw [if_neg hc] at hP
    subst hP
    exact Or.inr ⟨hc, rfl, rfl⟩

/-- membership in the part of the source box handed to `r`, in the coordinates of the whole domain -/
theorem in_source {r : ℕ} (hr : r < size) (g : ℝ) :
    let P := distmemOpts nx dx x0 x1 s0 s1 r size
    (P.srcX0 ≤ g - P.nxBfr * dx ∧ g - P.nxBfr * dx < P.srcX1) ↔
      (s0 ≤ g ∧ g < s1 ∧ lo nx dx x0 size r ≤ g ∧ g < hi nx dx x1 size r) := by
  intro P
  obtain ⟨h1, h2, h3⟩ := opts_edges (nx := nx) (dx := dx) (x0 := x0) (x1 := x1) (s0 := s0) (s1 := s1) hr
  rw [← h2, ← h3]
  have hb : (distmemOpts nx dx x0 x1 s0 s1 r size).nxBfr = r * getDevNx nx 0 size := by
    simp only [distmemOpts]; split_ifs <;> rfl
  show (P.srcX0 ≤ g - P.nxBfr * dx ∧ g - P.nxBfr * dx < P.srcX1) ↔
      (s0 ≤ g ∧ g < s1 ∧ P.x0 + P.nxBfr * dx ≤ g ∧ g < P.x1 + P.nxBfr * dx)
  have hP : (s1 - P.nxBfr * dx ≤ P.x0 ∨ s0 - P.nxBfr * dx ≥ P.x1) ∧ P.srcX0 = 0 ∧ P.srcX1 = 0 ∨
      ¬ (s1 - P.nxBfr * dx ≤ P.x0 ∨ s0 - P.nxBfr * dx ≥ P.x1) ∧
        P.srcX0 = (if s0 - P.nxBfr * dx < P.x0 then P.x0 else s0 - P.nxBfr * dx) ∧
        P.srcX1 = (if s1 - P.nxBfr * dx > P.x1 then P.x1 else s1 - P.nxBfr * dx) := by
    have := opts_cases nx dx x0 x1 s0 s1 r size
    exact this
  generalize P.nxBfr * dx = b at *
  rcases hP with ⟨h, e0, e1⟩ | ⟨h, e0, e1⟩
  · rw [e0, e1]
    constructor
    · rintro ⟨a, b⟩; linarith
    · rintro ⟨a, b, c, d⟩; rcases h with h | h <;> linarith
  · rw [e0, e1]
    push Not at h
    constructor
    · rintro ⟨a, b⟩
      split_ifs at a b <;> refine ⟨?_, ?_, ?_, ?_⟩ <;> linarith
    · rintro ⟨a, b, c, d⟩
      split_ifs <;> refine ⟨?_, ?_⟩ <;> linarith

theorem parts_cover (g : ℝ) (h0 : x0 ≤ g) (h1 : g < x1) (hs : 0 < size) :
    ∃ r < size, lo nx dx x0 size r ≤ g ∧ g < hi nx dx x1 size r := by
  have key : ∀ k, k < size → g < hi nx dx x1 size k → ∃ r ≤ k, lo nx dx x0 size r ≤ g ∧ g < hi nx dx x1 size r := by
    intro k
    induction k with
    | zero => intro _ h; exact ⟨0, le_rfl, by simpa [lo] using h0, h⟩
    | succ k ih =>
      intro hk h
      by_cases hc : lo nx dx x0 size (k + 1) ≤ g
      · exact ⟨k + 1, le_rfl, hc, h⟩
      · have : hi nx dx x1 size k = lo nx dx x0 size (k + 1) := by
          unfold hi lo; rw [if_pos (by omega), if_pos (by omega)]
        obtain ⟨r, h1, h2⟩ := ih (by omega) (by rw [this]; exact not_le.1 hc)
        exact ⟨r, by omega, h2⟩
  obtain ⟨r, h2, h3⟩ := key (size - 1) (by omega) (by unfold hi; simpa using h1)
  exact ⟨r, by omega, h3⟩

theorem parts_disjoint (hdx : 0 ≤ dx) {r r' : ℕ} (hrr : r < r') (hr' : r' < size) :
    hi nx dx x1 size r ≤ lo nx dx x0 size r' := by
  unfold hi lo
  rw [if_pos (by omega), if_pos (by omega)]
  apply mul_le_mul_of_nonneg_right _ hdx
  exact_mod_cast Nat.mul_le_mul_right _ hrr

/-- **C28** For a source box inside the domain: a point is in the box exactly if it is in the box given to some part, and then in
that of exactly one. -/
theorem source_tiles (hdx : 0 ≤ dx) (hs : 0 < size) (h0 : x0 ≤ s0) (h1 : s1 ≤ x1) (g : ℝ) :
    (s0 ≤ g ∧ g < s1 ↔ ∃! r, r < size ∧ (distmemOpts nx dx x0 x1 s0 s1 r size).srcX0 ≤
        g - (distmemOpts nx dx x0 x1 s0 s1 r size).nxBfr * dx ∧
      g - (distmemOpts nx dx x0 x1 s0 s1 r size).nxBfr * dx < (distmemOpts nx dx x0 x1 s0 s1 r size).srcX1) := by
  constructor
  · rintro ⟨a, b⟩
    obtain ⟨r, hr, hl, hh⟩ := parts_cover (nx := nx) (dx := dx) (size := size) g (h0.trans a) (lt_of_lt_of_le b h1) hs
    refine ⟨r, ⟨hr, (in_source hr g).2 ⟨a, b, hl, hh⟩⟩, ?_⟩
    rintro r' ⟨hr', hin⟩
    obtain ⟨_, _, hl', hh'⟩ := (in_source hr' g).1 hin
    rcases lt_trichotomy r r' with h | h | h
    · have := parts_disjoint (nx := nx) (x0 := x0) (x1 := x1) hdx h hr'; linarith
    · exact h.symm
    · have := parts_disjoint (nx := nx) (x0 := x0) (x1 := x1) hdx h hr; linarith
  · rintro ⟨r, ⟨hr, hin⟩, _⟩
    obtain ⟨a, b, _, _⟩ := (in_source hr g).1 hin
    exact ⟨a, b⟩

/-- **C28** Each part's box lies inside the part (or is the empty box `[0,0)`). -/
theorem source_inside {r : ℕ} (hr : r < size) (h : s0 ≤ s1) :
    let P := distmemOpts nx dx x0 x1 s0 s1 r size
    (P.srcX0 = 0 ∧ P.srcX1 = 0) ∨ (P.x0 ≤ P.srcX0 ∧ P.srcX0 ≤ P.srcX1 ∧ P.srcX1 ≤ P.x1) ∨ P.x1 ≤ P.x0 := by
  intro P
  have hc := opts_cases nx dx x0 x1 s0 s1 r size
  change (s1 - P.nxBfr * dx ≤ P.x0 ∨ s0 - P.nxBfr * dx ≥ P.x1) ∧ P.srcX0 = 0 ∧ P.srcX1 = 0 ∨
      ¬ (s1 - P.nxBfr * dx ≤ P.x0 ∨ s0 - P.nxBfr * dx ≥ P.x1) ∧
        P.srcX0 = (if s0 - P.nxBfr * dx < P.x0 then P.x0 else s0 - P.nxBfr * dx) ∧
        P.srcX1 = (if s1 - P.nxBfr * dx > P.x1 then P.x1 else s1 - P.nxBfr * dx) at hc
  rcases hc with ⟨_, e0, e1⟩ | ⟨hn, e0, e1⟩
  · exact Or.inl ⟨e0, e1⟩
  · push Not at hn
    by_cases hx : P.x1 ≤ P.x0
    · exact Or.inr (Or.inr hx)
    · push Not at hx
      refine Or.inr (Or.inl ?_)
      rw [e0, e1]
      split_ifs <;> refine ⟨?_, ?_, ?_⟩ <;> linarith

end source

/-- a source box over both parts of a two-device domain of 4 columns: halves of the box `[1, 3)` -/
example : (distmemOpts 4 1 0 4 1 3 0 2).srcX0 = 1 ∧ (distmemOpts 4 1 0 4 1 3 0 2).srcX1 = 2 ∧
    (distmemOpts 4 1 0 4 1 3 1 2).srcX0 = 0 ∧ (distmemOpts 4 1 0 4 1 3 1 2).srcX1 = 1 := by
  norm_num [distmemOpts, getDevNx]

/-- Remark recorded with C27: when the Lagrangian domain starts beyond the first part (the TODO in the code), the parts' domains are not the
domain: with `x0 = 3` in a domain of 4 columns on two devices, the second device's domain is [2,4) instead of [3,4). -/
theorem domain_start_beyond_first_part :
    let P := distmemOpts 4 1 3 4 0 0 1 2
    P.x0 + P.nxBfr * 1 = 2 ∧ P.x1 + P.nxBfr * 1 = 4 := by
  norm_num [distmemOpts, getDevNx]

end LCP.Distmem
