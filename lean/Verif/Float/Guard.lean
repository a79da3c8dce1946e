import Verif.Float.Props
import Verif.Grid.Props

/-!
# The predictor-corrector scheme in floating point (C116)

Between predictor and corrector, droplets at or above the top of the domain are moved "back into the domain since it would break next ijk"
(src/impl/advection/particles_impl_adve.ipp:211).
-/
namespace LCP.Float
open LCP.Grid LCP.Bcnd

/-- a number closer than `2^-26` to a representable one is rounded to it -/
theorem round_close {fl : ℝ → ℝ} (hp : Rounds 24 fl) {z w : ℝ} (hz : z ∈ F 24) (hz0 : 0 < z) (hw : |w - z| ≤ z / 2 ^ 26) :
    fl w = z := by
  by_contra hne
  have h1 := (hp w).2 z hz
  have hd : |fl w - z| ≤ z / 2 ^ 25 := by
    have : fl w - z = (fl w - w) + (w - z) := by ring
    rw [this]
    refine le_trans (abs_add_le _ _) ?_
    rw [abs_sub_comm z w] at h1
    have : z / 2 ^ 25 = z / 2 ^ 26 + z / 2 ^ 26 := by ring
    linarith
  have hd' := abs_le.1 hd
  have e24 : (2 : ℝ) ^ (-((24 : ℕ) : ℤ)) = 1 / 2 ^ 24 := by rw [zpow_neg, zpow_natCast]; norm_num
  rcases lt_or_gt_of_ne hne with h | h
  · have := gap (hp w).1 hz hz0 h
    rw [e24] at this
    norm_num at this hd'
    linarith
  · have := gap hz (hp w).1 (by linarith) h
    rw [e24] at this
    norm_num at this hd'
    linarith

/-- the size of `1e-8 * dz` in double precision -/
theorem tiny_bounds {fq : ℝ → ℝ} (hq : Rounds 53 fq) {dz : ℝ} (hd0 : 0 < dz) :
    99 / 10 ^ 10 * dz ≤ fq (fq (1 / 10 ^ 8) * dz) ∧ fq (fq (1 / 10 ^ 8) * dz) ≤ 101 / 10 ^ 10 * dz := by
  have e53 : (2 : ℝ) ^ (-((53 : ℕ) : ℤ)) = 1 / 2 ^ 53 := by rw [zpow_neg, zpow_natCast]; norm_num
  have h1 := rel_error (by norm_num) (hq (1 / 10 ^ 8))
  have h0 : 0 < fq (1 / 10 ^ 8) := nearest_pos (by norm_num) (hq _) (by norm_num)
  have h2 := rel_error (by norm_num) (hq (fq (1 / 10 ^ 8) * dz))
  rw [e53, abs_of_pos (by norm_num : (0 : ℝ) < 1 / 10 ^ 8)] at h1
  rw [e53, abs_of_pos (mul_pos h0 hd0)] at h2
  have h1' := abs_le.1 h1
  have h2' := abs_le.1 h2
  generalize fq (1 / 10 ^ 8) = t at *
  generalize fq (t * dz) = s at *
  norm_num at h1' h2' ⊢
  obtain ⟨a1, a2⟩ := h1'
  obtain ⟨b1, b2⟩ := h2'
  have c1 : t ≤ 1 / 99999999 := by linarith
  have c2 : 1 / 100000001 ≤ t := by linarith
  have c3 : t * dz ≤ 1 / 99999999 * dz := mul_le_mul_of_nonneg_right c1 hd0.le
  have c4 : 1 / 100000001 * dz ≤ t * dz := mul_le_mul_of_nonneg_right c2 hd0.le
  constructor <;> linarith

/-- **C116 fails in single precision**: whatever the height of the domain and the size of the cells, a droplet that the predictor has
moved to or above the top is put exactly at the top, not below it -/
theorem guard_single_at_top {fl fq : ℝ → ℝ} (hp : Rounds 24 fl) (hq : Rounds 53 fq) {z0 z1 dz z : ℝ} (hz1 : z1 ∈ F 24)
    (hd0 : 0 < dz) (hd1 : dz ≤ z1) (h01 : z0 < z1) (hz : z1 ≤ z) : guardZ fl fq z0 z1 dz z = z1 := by
  have hz0 : 0 < z1 := by linarith
  obtain ⟨b1, b2⟩ := tiny_bounds hq hd0
  have e53 : (2 : ℝ) ^ (-((53 : ℕ) : ℤ)) = 1 / 2 ^ 53 := by rw [zpow_neg, zpow_natCast]; norm_num
  have h := rel_error (by norm_num) (hq (z1 - fq (fq (1 / 10 ^ 8) * dz)))
  rw [e53] at h
  have key : fl (fq (z1 - fq (fq (1 / 10 ^ 8) * dz))) = z1 := by
    refine round_close hp hz1 hz0 ?_
    generalize fq (fq (1 / 10 ^ 8) * dz) = t at *
    norm_num at b1 b2
    rw [abs_of_nonneg (by linarith : 0 ≤ z1 - t)] at h
    have h' := abs_le.1 h
    generalize fq (z1 - t) = w at *
    norm_num at h' ⊢
    rw [abs_le]
    constructor <;> linarith
  unfold guardZ
  simp only [if_pos hz, key]
  rw [if_neg (by linarith)]

/-- **C116 fails in single precision** if the domain reaches the top of the grid (`z1 = nz * dz`): the cell index of such a droplet is
`nz`, one more than the highest; in a two-dimensional run this is the lowest cell of the next column -/
theorem guard_single_wrong_cell {fl fq : ℝ → ℝ} (hp : Rounds 24 fl) (hq : Rounds 53 fq) {z0 z1 dz z : ℝ} {d : Dims} (hz1 : z1 ∈ F 24)
    (hd0 : 0 < dz) (hx : 0 < d.nx) (hy : d.ny = 0) (hnz : 0 < d.nz) (hnz2 : d.nz ≤ 2 ^ 53) (htop : z1 = d.nz * dz) (h01 : z0 < z1) (hz : z1 ≤ z) :
    cellIdx fq dz (guardZ fl fq z0 z1 dz z) = some d.nz ∧ ∀ i, ravel d i 0 d.nz = ravel d (i + 1) 0 0 := by
  have hn1 : (1 : ℝ) ≤ d.nz := by exact_mod_cast hnz
  rw [guard_single_at_top hp hq hz1 hd0 (by rw [htop]; nlinarith) h01 hz]
  constructor
  · unfold cellIdx
    have hn2 : (d.nz : ℝ) ≤ 2 ^ 53 := by exact_mod_cast hnz2
    rw [htop, mul_div_cancel_right₀ _ hd0.ne', nearest_self (hq _) (nat_mem (by norm_num) hnz2),
      toSizeT_nonneg (by positivity) (lt_of_le_of_lt hn2 (by norm_num)), Nat.floor_natCast]
  · intro i
    have : d.nDims = 2 := nDims2 ⟨hx, hy, hnz⟩
    unfold ravel
    rw [this]
    simp only [Option.some.injEq]
    ring

/-- **C116** (double precision) a droplet the predictor has moved out of the domain through the top or the bottom is put back strictly
inside, and in one of the `nz` layers, for grids of up to a million layers and domains not thinner than a thousandth of a
layer. -/
theorem guard_double_partial {fl : ℝ → ℝ} (hp : Rounds 53 fl) {z0 z1 dz z : ℝ} {nz : ℕ} (hn : nz ≤ 10 ^ 6)
    (hz0 : 0 ≤ z0) (hd0 : 0 < dz) (h01 : z0 + dz / 1000 ≤ z1) (htop : z1 ≤ fl (nz * dz)) (hout : z ≤ z0 ∨ z1 ≤ z) :
    z0 < guardZ fl fl z0 z1 dz z ∧ guardZ fl fl z0 z1 dz z < z1 ∧ ∃ k, cellIdx fl dz (guardZ fl fl z0 z1 dz z) = some k ∧ k < nz := by
  obtain ⟨b1, b2⟩ := tiny_bounds hp hd0
  have e53 : (2 : ℝ) ^ (-((53 : ℕ) : ℤ)) = 1 / 2 ^ 53 := by rw [zpow_neg, zpow_natCast]; norm_num
  have hn' : (nz : ℝ) ≤ 10 ^ 6 := by exact_mod_cast hn
  have hsame : ∀ x, fl (fl x) = fl x := fun x => nearest_self (hp _) (hp x).1
  -- an upper bound of the top
  have ht : z1 ≤ nz * dz * (1 + 1 / 2 ^ 53) := by
    have h := rel_error (by norm_num) (hp (nz * dz))
    rw [e53, abs_of_nonneg (by positivity : 0 ≤ (nz : ℝ) * dz)] at h
    have := (abs_le.1 h).2
    linarith
  have ht' : z1 ≤ 1000001 * dz := by
    have : (nz : ℝ) * dz ≤ 10 ^ 6 * dz := mul_le_mul_of_nonneg_right hn' hd0.le
    norm_num at ht this
    linarith
  have hup := rel_error (by norm_num) (hp (z1 - fl (fl (1 / 10 ^ 8) * dz)))
  have hlo := rel_error (by norm_num) (hp (z0 + fl (fl (1 / 10 ^ 8) * dz)))
  rw [e53] at hup hlo
  -- where the droplet ends
  have key : z0 < guardZ fl fl z0 z1 dz z ∧ guardZ fl fl z0 z1 dz z ≤ z1 - 95 / 10 ^ 10 * dz := by
    unfold guardZ
    simp only [hsame]
    generalize fl (fl (1 / 10 ^ 8) * dz) = t at *
    norm_num at b1 b2
    rw [abs_of_nonneg (by linarith : 0 ≤ z1 - t)] at hup
    rw [abs_of_nonneg (by linarith : 0 ≤ z0 + t)] at hlo
    have hup' := abs_le.1 hup
    have hlo' := abs_le.1 hlo
    generalize fl (z1 - t) = w at *
    generalize fl (z0 + t) = v at *
    norm_num at hup' hlo' ⊢
    obtain ⟨u1, u2⟩ := hup'
    obtain ⟨v1, v2⟩ := hlo'
    split_ifs <;> constructor <;> first | linarith | skip
    all_goals
      rcases hout with h | h
      · linarith
      · linarith
  obtain ⟨k1, k2⟩ := key
  generalize guardZ fl fl z0 z1 dz z = g at *
  have hg1 : g < z1 := by
    norm_num at k2; linarith
  refine ⟨k1, hg1, ?_⟩
  have hg0 : 0 ≤ g / dz := div_nonneg (by linarith) hd0.le
  have hq := rel_error (by norm_num) (hp (g / dz))
  rw [e53, abs_of_nonneg hg0] at hq
  have hq' := (abs_le.1 hq).2
  have hgd : g / dz ≤ nz * (1 + 1 / 2 ^ 53) - 95 / 10 ^ 10 := by
    rw [div_le_iff₀ hd0]
    nlinarith
  have hr0 : 0 ≤ fl (g / dz) := le_nearest (hp _) (zero_mem _) hg0
  have hres : fl (g / dz) < nz := by
    generalize fl (g / dz) = r at *
    generalize g / dz = s at *
    have hn'' : (nz : ℝ) ≤ 1000000 := by linarith
    norm_num at hq' hgd ⊢
    linarith
  refine ⟨⌊fl (g / dz)⌋₊, ?_, (Nat.floor_lt hr0).2 hres⟩
  unfold cellIdx
  exact toSizeT_nonneg hr0 (lt_of_lt_of_le hres (le_trans hn' (by norm_num)))

/-- **C116** (single precision) in the halo-extended coordinates of the predictor step, a droplet between the side walls is in
one of the `nx` columns of the domain or the first column of the right halo: an existing column -/
theorem shift_column {fl fq : ℝ → ℝ} (hp : Rounds 24 fl) (hq : Rounds 53 fq) {x dx : ℝ} {nx : ℕ} (hn : nx ≤ 2 ^ 20)
    (hd : dx ∈ F 24) (hd0 : 0 < dx) (hx0 : 0 ≤ x) (hx1 : x ≤ fl (nx * dx)) :
    ∃ i, cellIdx fq dx (shiftFl fl 2 dx x) = some i ∧ 2 ≤ i ∧ i ≤ nx + 2 ∧ i < nx + 4 := by
  have hn' : (nx : ℝ) ≤ 2 ^ 20 := by exact_mod_cast hn
  have e24 : (2 : ℝ) ^ (-((24 : ℕ) : ℤ)) = 1 / 2 ^ 24 := by rw [zpow_neg, zpow_natCast]; norm_num
  have h2 : (2 : ℝ) * dx ∈ F 24 := by
    have := scale_mem hd 1
    rwa [zpow_one, mul_comm] at this
  have hs : shiftFl fl 2 dx x = fl (x + 2 * dx) := by
    unfold shiftFl
    push_cast
    rw [nearest_self (hp (2 * dx)) h2]
  rw [hs]
  have hlow : 2 * dx ≤ fl (x + 2 * dx) := le_nearest (hp _) h2 (by linarith)
  have hr1 := rel_error (by norm_num) (hp (nx * dx))
  have hr2 := rel_error (by norm_num) (hp (x + 2 * dx))
  rw [e24, abs_of_nonneg (by positivity : 0 ≤ (nx : ℝ) * dx)] at hr1
  rw [e24, abs_of_nonneg (by positivity : 0 ≤ x + 2 * dx)] at hr2
  have hr1' := (abs_le.1 hr1).2
  have hr2' := (abs_le.1 hr2).2
  have hnd : (nx : ℝ) * dx ≤ 2 ^ 20 * dx := mul_le_mul_of_nonneg_right hn' hd0.le
  have hup : fl (x + 2 * dx) < (nx + 3) * dx := by
    generalize fl (nx * dx) = t at *
    generalize fl (x + 2 * dx) = r at *
    norm_num at hr1' hr2' hnd
    nlinarith
  have hpos : 0 ≤ fl (x + 2 * dx) / dx := div_nonneg (by linarith) hd0.le
  have hle := (le_div_iff₀ hd0).1 (Nat.floor_le hpos)
  have hlt := (div_lt_iff₀ hd0).1 (Nat.lt_floor_add_one (fl (x + 2 * dx) / dx))
  have hi3 : ⌊fl (x + 2 * dx) / dx⌋₊ < nx + 3 := by
    rw [Nat.floor_lt hpos]; push_cast
    exact (div_lt_iff₀ hd0).2 hup
  have hi2 : 2 ≤ ⌊fl (x + 2 * dx) / dx⌋₊ := by
    rw [Nat.le_floor_iff hpos]; push_cast
    exact (le_div_iff₀ hd0).2 hlow
  exact ⟨_, cell_single_exact hq (hp _).1 hd hd0 (by omega) hle hlt, hi2, by omega, by omega⟩

example : ∃ fl fq : ℝ → ℝ, Rounds 24 fl ∧ Rounds 53 fq ∧ cellIdx fq 1 (guardZ fl fq 0 8 1 8) = some 8 := by
  obtain ⟨fl, h⟩ := exists_rounds (p := 24) (by norm_num)
  obtain ⟨fq, h'⟩ := exists_rounds (p := 53) (by norm_num)
  have h8 : (8 : ℝ) ∈ F 24 := by simpa using nat_mem (p := 24) (n := 8) (by norm_num) (by norm_num)
  refine ⟨fl, fq, h, h', ?_⟩
  simpa using (guard_single_wrong_cell h h' (z0 := 0) (z1 := 8) (dz := 1) (z := 8) (d := ⟨4, 0, 8⟩) h8 (by norm_num) (by norm_num) rfl
    (by norm_num) (by norm_num) (by norm_num) (by norm_num) le_rfl).1

example : ∃ fl : ℝ → ℝ, Rounds 53 fl ∧ ∃ k, cellIdx fl 1 (guardZ fl fl 0 8 1 9) = some k ∧ k < 8 := by
  obtain ⟨fl, h⟩ := exists_rounds (p := 53) (by norm_num)
  have h8 : fl ((8 : ℕ) * 1) = 8 := by
    rw [mul_one, nearest_self (h _) (nat_mem (by norm_num) (by norm_num))]; norm_num
  exact ⟨fl, h, (guard_double_partial h (z0 := 0) (z1 := 8) (dz := 1) (z := 9) (nz := 8) (by norm_num) le_rfl (by norm_num) (by norm_num)
    (by rw [h8]) (Or.inr (by norm_num))).2.2⟩

end LCP.Float
