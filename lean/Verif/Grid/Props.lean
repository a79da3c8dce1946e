import Verif.Grid.Model

/-!
# Grid properties: C11, C12, C31
-/
namespace LCP.Grid

/-- Specification: the cells of a grid — index triples, with index 0 in dimensions that do not exist. -/
def IsCell (d : Dims) (i j k : ℕ) : Prop := i < max 1 d.nx ∧ j < max 1 d.ny ∧ k < max 1 d.nz

theorem m1_eq (n : ℕ) : m1 n = max 1 n := by unfold m1; split_ifs <;> omega

theorem m1_pos {n : ℕ} (h : 0 < n) : n / m1 n = 1 := by
  unfold m1; rw [if_neg (by omega)]; exact Nat.div_self h

theorem nDims0 {d : Dims} (h : d.nx = 0 ∧ d.ny = 0 ∧ d.nz = 0) : d.nDims = 0 := by
  unfold Dims.nDims; simp [h]
theorem nDims1 {d : Dims} (h : 0 < d.nx ∧ d.ny = 0 ∧ d.nz = 0) : d.nDims = 1 := by
  unfold Dims.nDims; rw [m1_pos h.1]; simp [h.2]
theorem nDims2 {d : Dims} (h : 0 < d.nx ∧ d.ny = 0 ∧ 0 < d.nz) : d.nDims = 2 := by
  unfold Dims.nDims; rw [m1_pos h.1, m1_pos h.2.2]; simp [h.2.1]
theorem nDims3 {d : Dims} (h : 0 < d.nx ∧ 0 < d.ny ∧ 0 < d.nz) : d.nDims = 3 := by
  unfold Dims.nDims; rw [m1_pos h.1, m1_pos h.2.2, m1_pos h.2.1]

/-- in every documented layout the flat index is `(i*ny' + j)*nz' + k` with `n' = max 1 n` -/
theorem ravel_eq {d : Dims} (h : d.Layout) {i j k : ℕ} (hc : IsCell d i j k) :
    ravel d i j k = some ((i * max 1 d.ny + j) * max 1 d.nz + k) := by
  obtain ⟨h1, h2, h3⟩ := hc
  rcases h with h | h | h | h
  · simp only [ravel, nDims0 h]
    rw [h.1] at h1; rw [h.2.1] at h2; rw [h.2.2] at h3
    have : i = 0 := by omega
    have : j = 0 := by omega
    have : k = 0 := by omega
    subst_vars; simp
  · simp only [ravel, nDims1 h]
    rw [h.2.1] at h2; rw [h.2.2] at h3
    have : j = 0 := by omega
    have : k = 0 := by omega
    subst_vars; simp [h.2]
  · simp only [ravel, nDims2 h]
    rw [h.2.1] at h2
    have : j = 0 := by omega
    subst_vars; simp [h.2.1, show max 1 d.nz = d.nz by omega]
  · simp only [ravel, nDims3 h]
    rw [show max 1 d.nz = d.nz by omega, show max 1 d.ny = d.ny by omega]
    congr 1; ring

theorem unravel_eq {d : Dims} (h : d.Layout) {c : ℕ} (hc : c < d.nCell) :
    unravel d c = (c / max 1 d.nz / max 1 d.ny, (c / max 1 d.nz) % max 1 d.ny, c % max 1 d.nz) := by
  rcases h with h | h | h | h
  · simp only [unravel, nDims0 h]
    simp [Dims.nCell, m1, h] at hc
    subst hc; simp
  · simp only [unravel, nDims1 h]
    simp [h.2, Nat.mod_one]
  · simp only [unravel, nDims2 h]
    rw [show max 1 d.nz = d.nz by omega, h.2.1]
    simp [Nat.mod_one]
  · simp only [unravel, nDims3 h]
    rw [show max 1 d.nz = d.nz by omega, show max 1 d.ny = d.ny by omega, Nat.div_div_eq_div_mul]

/-- **C11** The flat index of a cell is below `n_cell`, and un-ravelling it gives the cell back. -/
theorem ravel_unravel {d : Dims} (h : d.Layout) {i j k : ℕ} (hc : IsCell d i j k) :
    ∃ c, ravel d i j k = some c ∧ c < d.nCell ∧ unravel d c = (i, j, k) := by
  refine ⟨_, ravel_eq h hc, ?_⟩
  obtain ⟨h1, h2, h3⟩ := hc
  have hlt : (i * max 1 d.ny + j) * max 1 d.nz + k < d.nCell := by
    unfold Dims.nCell
    simp only [m1_eq]
    calc (i * max 1 d.ny + j) * max 1 d.nz + k < (i * max 1 d.ny + j) * max 1 d.nz + max 1 d.nz := by omega
      _ = (i * max 1 d.ny + j + 1) * max 1 d.nz := by ring
      _ ≤ (i * max 1 d.ny + max 1 d.ny) * max 1 d.nz := Nat.mul_le_mul_right _ (by omega)
      _ = (i + 1) * max 1 d.ny * max 1 d.nz := by ring
      _ ≤ max 1 d.nx * max 1 d.ny * max 1 d.nz :=
        Nat.mul_le_mul_right _ (Nat.mul_le_mul_right _ (by omega))
  refine ⟨hlt, ?_⟩
  rw [unravel_eq h hlt]
  have e1 : ((i * max 1 d.ny + j) * max 1 d.nz + k) / max 1 d.nz = i * max 1 d.ny + j := by
    rw [Nat.mul_comm, Nat.mul_add_div (by omega), Nat.div_eq_of_lt h3, Nat.add_zero]
  have e2 : ((i * max 1 d.ny + j) * max 1 d.nz + k) % max 1 d.nz = k := by
    rw [Nat.mul_comm, Nat.mul_add_mod, Nat.mod_eq_of_lt h3]
  rw [e1, e2]
  rw [show (i * max 1 d.ny + j) / max 1 d.ny = i by
    rw [Nat.mul_comm, Nat.mul_add_div (by omega), Nat.div_eq_of_lt h2, Nat.add_zero]]
  rw [show (i * max 1 d.ny + j) % max 1 d.ny = j by rw [Nat.mul_comm, Nat.mul_add_mod, Nat.mod_eq_of_lt h2]]

/-- **C11** Conversely every flat index below `n_cell` un-ravels to a cell that ravels back to it. -/
theorem unravel_ravel {d : Dims} (h : d.Layout) {c : ℕ} (hc : c < d.nCell) :
    IsCell d (unravel d c).1 (unravel d c).2.1 (unravel d c).2.2 ∧
      ravel d (unravel d c).1 (unravel d c).2.1 (unravel d c).2.2 = some c := by
  have hcell : IsCell d (unravel d c).1 (unravel d c).2.1 (unravel d c).2.2 := by
    rw [unravel_eq h hc]
    unfold Dims.nCell at hc
    simp only [m1_eq] at hc
    refine ⟨?_, Nat.mod_lt _ (by omega), Nat.mod_lt _ (by omega)⟩
    rw [Nat.div_div_eq_div_mul]
    apply Nat.div_lt_of_lt_mul
    calc c < max 1 d.nx * max 1 d.ny * max 1 d.nz := hc
      _ = max 1 d.nz * max 1 d.ny * max 1 d.nx := by ring
  refine ⟨hcell, ?_⟩
  rw [ravel_eq h hcell, unravel_eq h hc]
  simp only
  congr 1
  rw [Nat.div_add_mod', Nat.div_add_mod']

/-- **C11** Different cells have different flat indices. -/
theorem ravel_injective {d : Dims} (h : d.Layout) {i j k i' j' k' : ℕ} (hc : IsCell d i j k) (hc' : IsCell d i' j' k')
    (he : ravel d i j k = ravel d i' j' k') : i = i' ∧ j = j' ∧ k = k' := by
  obtain ⟨c, h1, _, h2⟩ := ravel_unravel h hc
  obtain ⟨c', h1', _, h2'⟩ := ravel_unravel h hc'
  rw [h1, h1'] at he
  obtain rfl : c = c' := by simpa using he
  rw [h2] at h2'
  simpa using h2'

/-- position `x` lies in the `i`-th of `n` slabs of width `d` (no constraint if the dimension does not exist) -/
def InSlab (n : ℕ) (d x : ℝ) (i : ℕ) : Prop := n ≠ 0 → (i : ℝ) * d ≤ x ∧ x < ((i : ℝ) + 1) * d

theorem cast_spec {n : ℕ} {c x : ℝ} (hc : 0 < c) (hx0 : 0 ≤ x) (hx1 : x < n * c) (hn : (n : ℝ) ≤ 2 ^ 64) :
    ∃ i, divideByConstantAndCast c x = some i ∧ i < n ∧ (i : ℝ) * c ≤ x ∧ x < ((i : ℝ) + 1) * c ∧
      ∀ i' : ℕ, (i' : ℝ) * c ≤ x → x < ((i' : ℝ) + 1) * c → i' = i := by
  have hq0 : 0 ≤ x / c := div_nonneg hx0 hc.le
  have hq1 : x / c < n := (div_lt_iff₀ hc).2 hx1
  refine ⟨⌊x / c⌋₊, ?_, ?_, ?_, ?_, ?_⟩
  · unfold divideByConstantAndCast toSizeT
    rw [if_pos ⟨by linarith, by linarith⟩]
  · exact (Nat.floor_lt hq0).2 hq1
  · exact (le_div_iff₀ hc).1 (Nat.floor_le hq0)
  · exact (div_lt_iff₀ hc).1 (Nat.lt_floor_add_one _)
  · intro i' h1 h2
    symm
    rw [Nat.floor_eq_iff hq0]
    exact ⟨(le_div_iff₀ hc).2 h1, (div_lt_iff₀ hc).2 h2⟩

/-- **C12** A super-droplet inside the grid is assigned (without undefined behaviour) the flat index of the cell that
contains its position; this cell is unique and its flat index is below `n_cell`. -/
theorem position_determines_cell {d : Dims} (h : d.Layout) {dx dy dz x y z : ℝ}
    (hsz : d.nx ≤ 2 ^ 64 ∧ d.ny ≤ 2 ^ 64 ∧ d.nz ≤ 2 ^ 64)
    (hx : d.nx ≠ 0 → 0 < dx ∧ 0 ≤ x ∧ x < d.nx * dx)
    (hy : d.ny ≠ 0 → 0 < dy ∧ 0 ≤ y ∧ y < d.ny * dy)
    (hz : d.nz ≠ 0 → 0 < dz ∧ 0 ≤ z ∧ z < d.nz * dz) :
    ∃ i j k c, IsCell d i j k ∧ InSlab d.nx dx x i ∧ InSlab d.ny dy y j ∧ InSlab d.nz dz z k ∧
      ravel d i j k = some c ∧ c < d.nCell ∧ hskpngIjk d dx dy dz x y z = some c ∧
      ∀ i' j' k', IsCell d i' j' k' → InSlab d.nx dx x i' → InSlab d.ny dy y j' → InSlab d.nz dz z k' →
        i' = i ∧ j' = j ∧ k' = k := by
  have key : ∀ (n : ℕ) (c x : ℝ), (n ≠ 0 → 0 < c ∧ 0 ≤ x ∧ x < n * c) → n ≤ 2 ^ 64 →
      ∃ i, (if n ≠ 0 then divideByConstantAndCast c x else some 0) = some i ∧ i < max 1 n ∧ InSlab n c x i ∧
        ∀ i', i' < max 1 n → InSlab n c x i' → i' = i := by
    intro n c x hx hn
    by_cases h0 : n = 0
    · subst h0
      exact ⟨0, by simp, by simp, fun h => absurd rfl h, fun i' hi' _ => by omega⟩
    · obtain ⟨a, b, e⟩ := hx h0
      obtain ⟨i, h1, h2, h3, h4, h5⟩ := cast_spec a b e (by exact_mod_cast hn)
      exact ⟨i, by rw [if_pos h0, h1], by omega, fun _ => ⟨h3, h4⟩, fun i' _ hi' => h5 i' (hi' h0).1 (hi' h0).2⟩
  obtain ⟨i, a1, a2, a3, a4⟩ := key d.nx dx x hx hsz.1
  obtain ⟨j, b1, b2, b3, b4⟩ := key d.ny dy y hy hsz.2.1
  obtain ⟨k, c1, c2, c3, c4⟩ := key d.nz dz z hz hsz.2.2
  have hcell : IsCell d i j k := ⟨a2, b2, c2⟩
  obtain ⟨c, e1, e2, _⟩ := ravel_unravel h hcell
  refine ⟨i, j, k, c, hcell, a3, b3, c3, e1, e2, ?_, ?_⟩
  · unfold hskpngIjk
    rw [a1, b1, c1]
    exact e1
  · intro i' j' k' hc hi hj hk
    exact ⟨a4 i' hc.1 hi, b4 j' hc.2.1 hj, c4 k' hc.2.2 hk⟩

example : Dims.Layout ⟨4, 5, 6⟩ ∧ IsCell ⟨4, 5, 6⟩ 3 2 5 ∧ ravel ⟨4, 5, 6⟩ 3 2 5 = some 107 := by
  refine ⟨Or.inr (Or.inr (Or.inr (by simp))), by simp [IsCell], rfl⟩

/-! ### Face indices (C31)

Specification: the Courant number arrays of an Arakawa-C grid with `X` columns (halo columns included), last index
varying fastest: `courant_x` has (X+1)·ny·nz, `courant_y` X·(ny+1)·nz and `courant_z` X·ny·(nz+1) entries. -/

/-- index of the x-face between columns `i-1` and `i` -/
def faceX (d : Dims) (i j k : ℕ) : ℕ := (i * max 1 d.ny + j) * max 1 d.nz + k
/-- index of the y-face between rows `j-1` and `j` -/
def faceY (d : Dims) (i j k : ℕ) : ℕ := (i * (d.ny + 1) + j) * max 1 d.nz + k
/-- index of the z-face between levels `k-1` and `k` -/
def faceZ (d : Dims) (i j k : ℕ) : ℕ := (i * max 1 d.ny + j) * (d.nz + 1) + k

/-- **C31** 3D, halo included (`i < X`, any `X`): left/right/fore/hind/below/above face indices of every cell. -/
theorem faces_3d {d : Dims} (h : 0 < d.nx ∧ 0 < d.ny ∧ 0 < d.nz) {i j k : ℕ} (hj : j < d.ny) (hk : k < d.nz) :
    ∃ c, ravel d i j k = some c ∧ lft d c = faceX d i j k ∧ rgt d c = faceX d (i + 1) j k ∧
      fre d c = faceY d i j k ∧ hnd d c = faceY d i (j + 1) k ∧
      blw d c = faceZ d i j k ∧ abv d c = faceZ d i j (k + 1) := by
  have e1 : max 1 d.nz = d.nz := by omega
  have e2 : max 1 d.ny = d.ny := by omega
  refine ⟨i * (d.nz * d.ny) + j * d.nz + k, by simp only [ravel, nDims3 h], ?_⟩
  have hjk : j * d.nz + k < d.nz * d.ny := by
    calc j * d.nz + k < j * d.nz + d.nz := by omega
      _ = (j + 1) * d.nz := by ring
      _ ≤ d.ny * d.nz := Nat.mul_le_mul_right _ hj
      _ = d.nz * d.ny := by ring
  have ed : (i * (d.nz * d.ny) + j * d.nz + k) / (d.nz * d.ny) = i := by
    rw [Nat.add_assoc, Nat.mul_comm i, Nat.mul_add_div (by omega), Nat.div_eq_of_lt hjk, Nat.add_zero]
  have er : (i * (d.nz * d.ny) + j * d.nz + k - i * (d.nz * d.ny)) / d.nz = j := by
    rw [Nat.add_assoc, Nat.add_sub_cancel_left, Nat.mul_comm j, Nat.mul_add_div (by omega), Nat.div_eq_of_lt hk,
      Nat.add_zero]
  simp only [lft, rgt, fre, hnd, blw, abv, faceX, faceY, faceZ, nDims3 h, if_true, ed, er, e1, e2]
  refine ⟨by ring, by ring, by ring, by ring, by ring, by ring⟩

/-- **C31** 2D (xz), halo included. -/
theorem faces_2d {d : Dims} (h : 0 < d.nx ∧ d.ny = 0 ∧ 0 < d.nz) {i k : ℕ} (hk : k < d.nz) :
    ∃ c, ravel d i 0 k = some c ∧ lft d c = faceX d i 0 k ∧ rgt d c = faceX d (i + 1) 0 k ∧
      blw d c = faceZ d i 0 k ∧ abv d c = faceZ d i 0 (k + 1) := by
  have e1 : max 1 d.nz = d.nz := by omega
  refine ⟨i * d.nz + k, by simp only [ravel, nDims2 h], ?_⟩
  have ed : (i * d.nz + k) / d.nz = i := by
    rw [Nat.mul_comm i, Nat.mul_add_div (by omega), Nat.div_eq_of_lt hk, Nat.add_zero]
  simp only [lft, rgt, blw, abv, faceX, faceZ, nDims2 h, ed, e1, h.2.1]
  norm_num
  refine ⟨by ring, by ring, by ring⟩

/-- **C31** Neighbouring cells share faces and all indices stay inside the Courant arrays (3D, `X` columns with halo). -/
theorem faces_3d_shared {d : Dims} (h : 0 < d.nx ∧ 0 < d.ny ∧ 0 < d.nz) {X i j k : ℕ}
    (hi : i < X) (hj : j < d.ny) (hk : k < d.nz) :
    ∃ c, ravel d i j k = some c ∧
      rgt d c < (X + 1) * d.ny * d.nz ∧ hnd d c < X * (d.ny + 1) * d.nz ∧ abv d c < X * d.ny * (d.nz + 1) ∧
      (∀ c', ravel d (i + 1) j k = some c' → rgt d c = lft d c') ∧
      (∀ c', j + 1 < d.ny → ravel d i (j + 1) k = some c' → hnd d c = fre d c') ∧
      (∀ c', k + 1 < d.nz → ravel d i j (k + 1) = some c' → abv d c = blw d c') := by
  obtain ⟨c, e, e1, e2, e3, e4, e5, e6⟩ := faces_3d h (i := i) hj hk
  have m1' : max 1 d.nz = d.nz := by omega
  have m2 : max 1 d.ny = d.ny := by omega
  refine ⟨c, e, ?_, ?_, ?_, ?_, ?_, ?_⟩
  · rw [e2]; simp only [faceX, m1', m2]
    calc ((i + 1) * d.ny + j) * d.nz + k < ((i + 1) * d.ny + j) * d.nz + d.nz := by omega
      _ = ((i + 1) * d.ny + (j + 1)) * d.nz := by ring
      _ ≤ (X * d.ny + d.ny) * d.nz := Nat.mul_le_mul_right _ (by
          have : (i + 1) * d.ny ≤ X * d.ny := Nat.mul_le_mul_right _ hi
          omega)
      _ = (X + 1) * d.ny * d.nz := by ring
  · rw [e4]; simp only [faceY, m1']
    calc (i * (d.ny + 1) + (j + 1)) * d.nz + k < (i * (d.ny + 1) + (j + 1)) * d.nz + d.nz := by omega
      _ = (i * (d.ny + 1) + (j + 2)) * d.nz := by ring
      _ ≤ (i * (d.ny + 1) + (d.ny + 1)) * d.nz := Nat.mul_le_mul_right _ (by omega)
      _ = (i + 1) * (d.ny + 1) * d.nz := by ring
      _ ≤ X * (d.ny + 1) * d.nz := Nat.mul_le_mul_right _ (Nat.mul_le_mul_right _ hi)
  · rw [e6]; simp only [faceZ, m2]
    calc (i * d.ny + j) * (d.nz + 1) + (k + 1) < (i * d.ny + j) * (d.nz + 1) + (d.nz + 1) := by omega
      _ = (i * d.ny + (j + 1)) * (d.nz + 1) := by ring
      _ ≤ (i * d.ny + d.ny) * (d.nz + 1) := Nat.mul_le_mul_right _ (by omega)
      _ = (i + 1) * d.ny * (d.nz + 1) := by ring
      _ ≤ X * d.ny * (d.nz + 1) := Nat.mul_le_mul_right _ (Nat.mul_le_mul_right _ hi)
  · intro c' h'
    obtain ⟨c'', f, f1, _⟩ := faces_3d h (i := i + 1) hj hk
    rw [f] at h'; obtain rfl : c'' = c' := by simpa using h'
    rw [e2, f1]
  · intro c' hj' h'
    obtain ⟨c'', f, _, _, f1, _⟩ := faces_3d h (i := i) hj' hk
    rw [f] at h'; obtain rfl : c'' = c' := by simpa using h'
    rw [e4, f1]
  · intro c' hk' h'
    obtain ⟨c'', f, _, _, _, _, f1, _⟩ := faces_3d h (i := i) hj hk'
    rw [f] at h'; obtain rfl : c'' = c' := by simpa using h'
    rw [e6, f1]

/-- **C31** The same in 2D. -/
theorem faces_2d_shared {d : Dims} (h : 0 < d.nx ∧ d.ny = 0 ∧ 0 < d.nz) {X i k : ℕ} (hi : i < X) (hk : k < d.nz) :
    ∃ c, ravel d i 0 k = some c ∧ rgt d c < (X + 1) * d.nz ∧ abv d c < X * (d.nz + 1) ∧
      (∀ c', ravel d (i + 1) 0 k = some c' → rgt d c = lft d c') ∧
      (∀ c', k + 1 < d.nz → ravel d i 0 (k + 1) = some c' → abv d c = blw d c') := by
  obtain ⟨c, e, e1, e2, e3, e4⟩ := faces_2d h (i := i) hk
  have m1' : max 1 d.nz = d.nz := by omega
  refine ⟨c, e, ?_, ?_, ?_, ?_⟩
  · rw [e2]; simp only [faceX, m1', h.2.1]
    norm_num
    calc (i + 1) * d.nz + k < (i + 1) * d.nz + d.nz := by omega
      _ = (i + 1 + 1) * d.nz := by ring
      _ ≤ (X + 1) * d.nz := Nat.mul_le_mul_right _ (by omega)
  · rw [e4]; simp only [faceZ, h.2.1]
    norm_num
    calc i * (d.nz + 1) + (k + 1) < i * (d.nz + 1) + (d.nz + 1) := by omega
      _ = (i + 1) * (d.nz + 1) := by ring
      _ ≤ X * (d.nz + 1) := Nat.mul_le_mul_right _ hi
  · intro c' h'
    obtain ⟨c'', f, f1, _⟩ := faces_2d h (i := i + 1) hk
    rw [f] at h'; obtain rfl : c'' = c' := by simpa using h'
    rw [e2, f1]
  · intro c' hk' h'
    obtain ⟨c'', f, _, _, f1, _⟩ := faces_2d h (i := i) hk'
    rw [f] at h'; obtain rfl : c'' = c' := by simpa using h'
    rw [e4, f1]

/-- **C31** (partial) In 1D only the left face index is right. Missing: the right face, see `right_face_1d_wrong`. -/
theorem left_face_1d_partial {d : Dims} (h : 0 < d.nx ∧ d.ny = 0 ∧ d.nz = 0) (i : ℕ) :
    ravel d i 0 0 = some i ∧ lft d i = faceX d i 0 0 := by
  refine ⟨by simp only [ravel, nDims1 h], ?_⟩
  simp [lft, faceX, h]

/-- **C31** (negation) In 1D the stored right-face index of every cell is the index of its *left* face, because the
code adds `nz`, which is 0 in 1D. -/
theorem right_face_1d_wrong {d : Dims} (h : 0 < d.nx ∧ d.ny = 0 ∧ d.nz = 0) (i : ℕ) :
    rgt d i = faceX d i 0 0 ∧ rgt d i ≠ faceX d (i + 1) 0 0 := by
  have : rgt d i = i := by simp [rgt, lft, nDims1 h, h.2.2]
  rw [this]
  simp [faceX, h.2]

/-- the flat cell index range with the halo is covered: `n_cell + 2 halo_x` is (nx + 2 halo) columns (3D, 2D) -/
theorem halo_columns {d : Dims} (h : (0 < d.nx ∧ 0 < d.ny ∧ 0 < d.nz) ∨ (0 < d.nx ∧ d.ny = 0 ∧ 0 < d.nz)) (hs : ℕ) :
    d.nCell + 2 * haloX d hs = (d.nx + 2 * hs) * max 1 d.ny * d.nz := by
  rcases h with h | h
  · simp only [Dims.nCell, m1_eq, haloX, nDims3 h]
    rw [show max 1 d.nz = d.nz by omega, show max 1 d.ny = d.ny by omega, show max 1 d.nx = d.nx by omega]
    norm_num; ring
  · simp only [Dims.nCell, m1_eq, haloX, nDims2 h]
    rw [show max 1 d.nz = d.nz by omega, show max 1 d.ny = 1 by omega, show max 1 d.nx = d.nx by omega]
    norm_num; ring

end LCP.Grid
