import Verif.Kernel.Model
import Mathlib.Tactic.Ring
import Mathlib.Tactic.Linarith
import Mathlib.Tactic.FieldSimp
import Mathlib.Tactic.Positivity
import Mathlib.Tactic.NormNum
import Mathlib.Algebra.Group.Nat.Even

/-!
# C72: tabulated collision efficiencies
-/
namespace LCP.Kernel
noncomputable section

/-! ### specification -/

/-- radii (in micrometers) at which efficiencies are given: 0, 1, ..., 100, 110, 120, ... -/
def node (i : ℕ) : ℕ := if i ≤ 100 then i else 100 + 10 * (i - 100)

/-- the efficiency given for the radii number `i` and `j`: the table is a lower triangular matrix stored by rows after `nUser` other numbers -/
def entry (kp : List ℝ) (nUser i j : ℕ) : ℝ := kp.getD (nUser + (max i j * (max i j + 1) / 2 + min i j)) 0

/-- bilinear combination with weights `u`, `v` -/
def blend (u v e00 e10 e01 e11 : ℝ) : ℝ := (1 - u) * (1 - v) * e00 + u * (1 - v) * e10 + (1 - u) * v * e01 + u * v * e11

/-- position of `r` between the nodes `i` and `i+1` -/
def pos (i : ℕ) (r : ℝ) : ℝ := (r - node i) / (node (i + 1) - node i)

/-! ### lemmas -/

theorem half_mul_succ (i : ℕ) : 0.5 * (i : ℝ) * ((i : ℝ) + 1) = ((i * (i + 1) / 2 : ℕ) : ℝ) := by
  have h : 2 ∣ i * (i + 1) := (Nat.even_mul_succ_self i).two_dvd
  rw [Nat.cast_div h (by norm_num)]
  push_cast
  ring

theorem vectorIndex_eq (i j nUser : ℕ) : vectorIndex i j nUser = nUser + (max i j * (max i j + 1) / 2 + min i j) := by
  unfold vectorIndex
  by_cases h : i ≥ j
  · rw [if_pos h, half_mul_succ, max_eq_left h, min_eq_right h]
    have : ((i * (i + 1) / 2 : ℕ) : ℝ) + (j : ℝ) + (nUser : ℝ) = ((nUser + (i * (i + 1) / 2 + j) : ℕ) : ℝ) := by push_cast; ring
    rw [this, Nat.floor_natCast]
  · have h' : i ≤ j := by omega
    rw [if_neg h, half_mul_succ, max_eq_right h', min_eq_left h']
    have : ((j * (j + 1) / 2 : ℕ) : ℝ) + (i : ℝ) + (nUser : ℝ) = ((nUser + (j * (j + 1) / 2 + i) : ℕ) : ℝ) := by push_cast; ring
    rw [this, Nat.floor_natCast]

theorem kernelIndex_node (i : ℕ) : kernelIndex (node i) = i := by
  unfold kernelIndex node
  by_cases h : i ≤ 100
  · rw [if_pos h, if_pos]
    exact_mod_cast h
  · rw [if_neg h, if_neg]
    · have e : (100 + (((100 + 10 * (i - 100) : ℕ) : ℝ) - 100) / 10) = ((i : ℕ) : ℝ) := by
        have : 100 ≤ i := by omega
        push_cast [Nat.cast_sub this]
        ring
      rw [e, Nat.floor_natCast]
    · push_cast
      have : 1 ≤ i - 100 := by omega
      have : (1 : ℝ) ≤ ((i - 100 : ℕ) : ℝ) := by exact_mod_cast this
      linarith

theorem node_mono {i j : ℕ} (h : i ≤ j) : node i ≤ node j := by
  unfold node; split_ifs <;> omega

theorem node_succ (i : ℕ) : node (i + 1) = node i + if i < 100 then 1 else 10 := by
  unfold node; split_ifs <;> omega

theorem lower_node (i : ℕ) (r : ℝ) (h1 : (node i : ℝ) ≤ r) (h2 : r < node (i + 1)) : lower r = (node i, node (i + 1) - node i) := by
  have hs := node_succ i
  unfold lower
  by_cases hi : i < 100
  · rw [if_pos hi] at hs
    have h0 : node i = i := by unfold node; rw [if_pos (by omega)]
    have : r < 100 := by
      have : node (i + 1) ≤ 100 := by omega
      have : (node (i + 1) : ℝ) ≤ 100 := by exact_mod_cast this
      linarith
    rw [if_neg (by linarith)]
    have : ⌊r⌋₊ = node i := by
      rw [Nat.floor_eq_iff (le_trans (Nat.cast_nonneg _) h1)]
      exact ⟨h1, by rw [hs] at h2; push_cast at h2; exact h2⟩
    rw [this, hs]; congr 1; omega
  · rw [if_neg hi] at hs
    have h0 : node i = 100 + 10 * (i - 100) := by unfold node; split_ifs <;> omega
    have hr : r ≥ 100 := by
      have : 100 ≤ node i := by omega
      have : (100 : ℝ) ≤ node i := by exact_mod_cast this
      linarith
    rw [if_pos hr]
    have : ⌊r / 10⌋₊ = i - 90 := by
      rw [Nat.floor_eq_iff (by positivity)]
      rw [hs, h0] at h2
      rw [h0] at h1
      have e : ((i - 90 : ℕ) : ℝ) = ((i - 100 : ℕ) : ℝ) + 10 := by
        have : i - 90 = i - 100 + 10 := by omega
        rw [this]; push_cast; ring
      push_cast at h1 h2
      constructor
      · rw [e]; linarith
      · rw [e]; linarith
    rw [this, hs]
    congr 1
    · omega
    · omega

theorem exists_node (r : ℝ) (h0 : 0 ≤ r) (h1 : r < 1100) : ∃ i < 200, (node i : ℝ) ≤ r ∧ r < node (i + 1) := by
  by_cases h : r < 100
  · refine ⟨⌊r⌋₊, ?_, ?_, ?_⟩
    · have := (Nat.floor_lt h0).2 (by simpa using h : r < ((100 : ℕ) : ℝ)); omega
    · have hl := (Nat.floor_lt h0).2 (by simpa using h : r < ((100 : ℕ) : ℝ))
      unfold node; rw [if_pos hl.le]; exact Nat.floor_le h0
    · have hl := (Nat.floor_lt h0).2 (by simpa using h : r < ((100 : ℕ) : ℝ))
      unfold node; rw [if_pos (by omega)]; push_cast; exact Nat.lt_floor_add_one r
  · push Not at h
    have h00 : 0 ≤ (r - 100) / 10 := by linarith [h]
    have hl := (Nat.floor_lt h00).2 (by push_cast; linarith : (r - 100) / 10 < ((100 : ℕ) : ℝ))
    have hf := Nat.floor_le h00
    have hg := Nat.lt_floor_add_one ((r - 100) / 10)
    refine ⟨100 + ⌊(r - 100) / 10⌋₊, by omega, ?_, ?_⟩
    · have : node (100 + ⌊(r - 100) / 10⌋₊) = 100 + 10 * ⌊(r - 100) / 10⌋₊ := by unfold node; split_ifs <;> omega
      rw [this]; push_cast; linarith
    · have : node (100 + ⌊(r - 100) / 10⌋₊ + 1) = 100 + 10 * (⌊(r - 100) / 10⌋₊ + 1) := by unfold node; split_ifs <;> omega
      rw [this]; push_cast; linarith

theorem tri_mono {i j : ℕ} (h : i ≤ j) : i * (i + 1) / 2 ≤ j * (j + 1) / 2 := Nat.div_le_div_right (Nat.mul_le_mul h (by omega))

theorem read (kp : List ℝ) (nUser i j : ℕ) (hi : i ≤ 200) (hj : j ≤ 200) (hl : nUser + 20301 ≤ kp.length) :
    kp[vectorIndex i j nUser]? = some (entry kp nUser i j) := by
  rw [vectorIndex_eq]
  have h1 : max i j ≤ 200 := by omega
  have h2 := tri_mono h1
  have h3 : min i j ≤ 200 := by omega
  have : nUser + (max i j * (max i j + 1) / 2 + min i j) < kp.length := by omega
  unfold entry
  rw [List.getD_eq_getElem _ _ this, List.getElem?_eq_getElem this]

theorem pos_den (i : ℕ) : 0 < (node (i + 1) : ℝ) - node i := by
  have h : node i < node (i + 1) := by rw [node_succ]; split_ifs <;> omega
  have : (node i : ℝ) < node (i + 1) := by exact_mod_cast h
  linarith

theorem entry_symm (kp : List ℝ) (nUser i j : ℕ) : entry kp nUser i j = entry kp nUser j i := by
  unfold entry; rw [max_comm, min_comm]

/-- helper: half-open cells -/
theorem eff_cell (kp : List ℝ) (nUser : ℕ) (rmax del r1 r2 : ℝ) (hl : nUser + 20301 ≤ kp.length) (i j : ℕ) (hi : i < 200) (hj : j < 200)
    (h1 : (node i : ℝ) ≤ clip rmax del r1) (h1' : clip rmax del r1 < node (i + 1)) (h2 : (node j : ℝ) ≤ clip rmax del r2) (h2' : clip rmax del r2 < node (j + 1)) :
    interpolatedEfficiency kp nUser rmax del r1 r2 = some (blend (pos i (clip rmax del r1)) (pos j (clip rmax del r2))
      (entry kp nUser i j) (entry kp nUser (i + 1) j) (entry kp nUser i (j + 1)) (entry kp nUser (i + 1) (j + 1))) := by
  have di := pos_den i; have dj := pos_den j
  have ni : node i ≤ node (i + 1) := node_mono (by omega)
  have nj : node j ≤ node (j + 1) := node_mono (by omega)
  unfold interpolatedEfficiency
  simp only [lower_node i _ h1 h1', lower_node j _ h2 h2']
  rw [show node i + (node (i + 1) - node i) = node (i + 1) by omega, show node j + (node (j + 1) - node j) = node (j + 1) by omega]
  simp only [kernelIndex_node]
  rw [read kp nUser i j (by omega) (by omega) hl, read kp nUser (i + 1) j (by omega) (by omega) hl, read kp nUser i (j + 1) (by omega) (by omega) hl,
    read kp nUser (i + 1) (j + 1) (by omega) (by omega) hl]
  simp only [Option.bind_eq_bind, Option.bind_some, Option.some.injEq]
  rw [Nat.cast_sub ni, Nat.cast_sub nj]
  unfold blend pos
  field_simp
  ring

theorem node_200 : node 200 = 1100 := by unfold node; norm_num

/-! ### theorems -/

/-- **C72 (bilinear interpolation).** Between neighbouring radii of the table (end points included, so there are no jumps) the efficiency is the bilinear interpolation of the
four tabulated efficiencies, for all radii below 1100 micrometers. -/
theorem eff_bilinear (kp : List ℝ) (nUser : ℕ) (del r1 r2 : ℝ) (hl : nUser + 20301 ≤ kp.length) (i j : ℕ) (hi : i < 200) (hj : j < 200)
    (h1 : (node i : ℝ) ≤ r1 * 1e6) (h1' : r1 * 1e6 ≤ node (i + 1)) (h2 : (node j : ℝ) ≤ r2 * 1e6) (h2' : r2 * 1e6 ≤ node (j + 1))
    (hr1 : r1 * 1e6 < 1100) (hr2 : r2 * 1e6 < 1100) :
    interpolatedEfficiency kp nUser 1100 del r1 r2 = some (blend (pos i (r1 * 1e6)) (pos j (r2 * 1e6))
      (entry kp nUser i j) (entry kp nUser (i + 1) j) (entry kp nUser i (j + 1)) (entry kp nUser (i + 1) (j + 1))) := by
  have c1 : clip 1100 del r1 = r1 * 1e6 := by unfold clip; rw [if_neg (by linarith)]
  have c2 : clip 1100 del r2 = r2 * 1e6 := by unfold clip; rw [if_neg (by linarith)]
  -- the cell used by the code
  have key : ∀ (i : ℕ) (r : ℝ), i < 200 → (node i : ℝ) ≤ r → r ≤ node (i + 1) → r < 1100 →
      ∃ k < 200, (node k : ℝ) ≤ r ∧ r < node (k + 1) ∧ (k = i ∨ (k = i + 1 ∧ r = node (i + 1))) := by
    intro i r hi a b c
    rcases lt_or_eq_of_le b with b | b
    · exact ⟨i, hi, a, b, Or.inl rfl⟩
    · refine ⟨i + 1, ?_, b.ge, ?_, Or.inr ⟨rfl, b⟩⟩
      · by_contra hk
        have : i + 1 = 200 := by omega
        rw [b, this, node_200] at c; norm_num at c
      · rw [b]; have := pos_den (i + 1); linarith
  have p1 : ∀ i : ℕ, pos i (node (i + 1)) = 1 := fun i => div_self (pos_den i).ne'
  have p0 : ∀ i : ℕ, pos i (node i) = 0 := fun i => by unfold pos; rw [sub_self, zero_div]
  obtain ⟨k, hk, k1, k2, k3⟩ := key i _ hi h1 h1' hr1
  obtain ⟨l, hl', l1, l2, l3⟩ := key j _ hj h2 h2' hr2
  rw [eff_cell kp nUser 1100 del r1 r2 hl k l hk hl' (by rw [c1]; exact k1) (by rw [c1]; exact k2) (by rw [c2]; exact l1) (by rw [c2]; exact l2), c1, c2]
  congr 1
  rcases k3 with rfl | ⟨rfl, e⟩ <;> rcases l3 with rfl | ⟨rfl, e'⟩
  · rfl
  · rw [e', p0, p1]; unfold blend; ring
  · rw [e, p0, p1]; unfold blend; ring
  · rw [e, e', p0, p1, p0, p1]; unfold blend; ring

/-- **C72 (exact at the radii of the table).** -/
theorem eff_node (kp : List ℝ) (nUser : ℕ) (del : ℝ) (hl : nUser + 20301 ≤ kp.length) (i j : ℕ) (hi : i < 200) (hj : j < 200) :
    interpolatedEfficiency kp nUser 1100 del (node i / 1e6) (node j / 1e6) = some (entry kp nUser i j) := by
  have e : ∀ i : ℕ, (node i : ℝ) / 1e6 * 1e6 = node i := fun i => by field_simp
  have lt : ∀ i : ℕ, i < 200 → (node i : ℝ) < 1100 := by
    intro i hi
    have := pos_den i
    have h2 : node (i + 1) ≤ node 200 := node_mono (by omega)
    rw [node_200] at h2
    have : (node (i + 1) : ℝ) ≤ 1100 := by exact_mod_cast h2
    linarith
  rw [eff_bilinear kp nUser del _ _ hl i j hi hj (by rw [e]) (by rw [e]; linarith [pos_den i]) (by rw [e]) (by rw [e]; linarith [pos_den j]) (by rw [e]; exact lt i hi)
    (by rw [e]; exact lt j hj), e, e]
  have p0 : ∀ i : ℕ, pos i (node i) = 0 := fun i => by unfold pos; rw [sub_self, zero_div]
  rw [p0, p0]; unfold blend; congr 1; ring

theorem clip_range (del r : ℝ) (hd : 0 < del) (hd' : del ≤ 1100) (hr : 0 ≤ r) : 0 ≤ clip 1100 del r ∧ clip 1100 del r < 1100 := by
  unfold clip
  split_ifs with h
  · exact ⟨by linarith, by linarith⟩
  · push Not at h; exact ⟨by positivity, h⟩

theorem pos_mem (i : ℕ) (r : ℝ) (h1 : (node i : ℝ) ≤ r) (h2 : r ≤ node (i + 1)) : 0 ≤ pos i r ∧ pos i r ≤ 1 := by
  have := pos_den i
  unfold pos
  constructor
  · apply div_nonneg <;> linarith
  · rw [div_le_one this]; linarith

theorem blend_mem (lo hi u v a b c d : ℝ) (hu : 0 ≤ u ∧ u ≤ 1) (hv : 0 ≤ v ∧ v ≤ 1) (ha : lo ≤ a ∧ a ≤ hi) (hb : lo ≤ b ∧ b ≤ hi) (hc : lo ≤ c ∧ c ≤ hi) (hd : lo ≤ d ∧ d ≤ hi) :
    lo ≤ blend u v a b c d ∧ blend u v a b c d ≤ hi := by
  obtain ⟨u0, u1⟩ := hu; obtain ⟨v0, v1⟩ := hv
  have w1 : 0 ≤ (1 - u) * (1 - v) := mul_nonneg (by linarith) (by linarith)
  have w2 : 0 ≤ u * (1 - v) := mul_nonneg u0 (by linarith)
  have w3 : 0 ≤ (1 - u) * v := mul_nonneg (by linarith) v0
  have w4 : 0 ≤ u * v := mul_nonneg u0 v0
  have ws : (1 - u) * (1 - v) + u * (1 - v) + (1 - u) * v + u * v = 1 := by ring
  unfold blend
  constructor
  · have : lo = ((1 - u) * (1 - v) + u * (1 - v) + (1 - u) * v + u * v) * lo := by rw [ws, one_mul]
    rw [this]
    nlinarith [mul_le_mul_of_nonneg_left ha.1 w1, mul_le_mul_of_nonneg_left hb.1 w2, mul_le_mul_of_nonneg_left hc.1 w3, mul_le_mul_of_nonneg_left hd.1 w4]
  · have : hi = ((1 - u) * (1 - v) + u * (1 - v) + (1 - u) * v + u * v) * hi := by rw [ws, one_mul]
    rw [this]
    nlinarith [mul_le_mul_of_nonneg_left ha.2 w1, mul_le_mul_of_nonneg_left hb.2 w2, mul_le_mul_of_nonneg_left hc.2 w3, mul_le_mul_of_nonneg_left hd.2 w4]

/-- **C72 (always inside of the table).** In double precision (`del > 0`): for all radii, however large, only entries of the table are read, and the efficiency lies within the bounds of
the tabulated ones. -/
theorem eff_bounds (kp : List ℝ) (nUser : ℕ) (del r1 r2 lo hi : ℝ) (hl : nUser + 20301 ≤ kp.length) (hd : 0 < del) (hd' : del ≤ 1100) (h1 : 0 ≤ r1) (h2 : 0 ≤ r2)
    (hb : ∀ i ≤ 200, ∀ j ≤ 200, lo ≤ entry kp nUser i j ∧ entry kp nUser i j ≤ hi) :
    ∃ e, interpolatedEfficiency kp nUser 1100 del r1 r2 = some e ∧ lo ≤ e ∧ e ≤ hi := by
  obtain ⟨a1, a2⟩ := clip_range del r1 hd hd' h1
  obtain ⟨b1, b2⟩ := clip_range del r2 hd hd' h2
  obtain ⟨i, hi', i1, i2⟩ := exists_node _ a1 a2
  obtain ⟨j, hj', j1, j2⟩ := exists_node _ b1 b2
  exact ⟨_, eff_cell kp nUser 1100 del r1 r2 hl i j hi' hj' i1 i2 j1 j2,
    blend_mem _ _ _ _ _ _ _ _ (pos_mem i _ i1 i2.le) (pos_mem j _ j1 j2.le) (hb _ (by omega) _ (by omega)) (hb _ (by omega) _ (by omega)) (hb _ (by omega) _ (by omega))
      (hb _ (by omega) _ (by omega))⟩

/-- **C72 (large drops).** A radius beyond the table is treated as the largest one in the table (up to `del`). -/
theorem eff_large (kp : List ℝ) (nUser : ℕ) (del r1 r2 : ℝ) (hd : 0 < del) (h : 1100 ≤ r1 * 1e6) :
    interpolatedEfficiency kp nUser 1100 del r1 r2 = interpolatedEfficiency kp nUser 1100 del ((1100 - del) / 1e6) r2 := by
  have e : clip 1100 del r1 = clip 1100 del ((1100 - del) / 1e6) := by
    unfold clip
    rw [if_pos h, if_neg (by rw [div_mul_cancel₀ _ (by norm_num)]; linarith), div_mul_cancel₀ _ (by norm_num)]
  unfold interpolatedEfficiency
  rw [e]

/-- **C72 (symmetry).** It does not matter which droplet of the pair comes first. -/
theorem eff_symm (kp : List ℝ) (nUser : ℕ) (rmax del r1 r2 : ℝ) : interpolatedEfficiency kp nUser rmax del r1 r2 = interpolatedEfficiency kp nUser rmax del r2 r1 := by
  have vs : ∀ i j, vectorIndex i j nUser = vectorIndex j i nUser := fun i j => by rw [vectorIndex_eq, vectorIndex_eq, max_comm, min_comm]
  unfold interpolatedEfficiency
  simp only []
  generalize clip rmax del r1 = a
  generalize clip rmax del r2 = b
  rw [vs (kernelIndex (lower a).1) (kernelIndex (lower b).1), vs (kernelIndex ((lower a).1 + (lower a).2)) (kernelIndex (lower b).1),
    vs (kernelIndex (lower a).1) (kernelIndex ((lower b).1 + (lower b).2)), vs (kernelIndex ((lower a).1 + (lower a).2)) (kernelIndex ((lower b).1 + (lower b).2))]
  generalize kp[vectorIndex (kernelIndex (lower b).1) (kernelIndex (lower a).1) nUser]? = e0
  generalize kp[vectorIndex (kernelIndex (lower b).1) (kernelIndex ((lower a).1 + (lower a).2)) nUser]? = e1
  generalize kp[vectorIndex (kernelIndex ((lower b).1 + (lower b).2)) (kernelIndex (lower a).1) nUser]? = e2
  generalize kp[vectorIndex (kernelIndex ((lower b).1 + (lower b).2)) (kernelIndex ((lower a).1 + (lower a).2)) nUser]? = e3
  cases e0 <;> cases e1 <;> cases e2 <;> cases e3 <;> simp only [Option.bind_eq_bind, Option.bind_some, Option.bind_none, Option.some.injEq]
  rw [div_right_comm]
  ring_nf

/-- **C72 (finding).** In single precision `r_max - 1e-6` is rounded to `r_max` (`del = 0`): for any drop of 1.1 mm or more the code reads outside of the table. -/
theorem float_reads_outside (kp : List ℝ) (nUser : ℕ) (r1 r2 : ℝ) (hl : kp.length = nUser + 20301) (h : 1100 ≤ r1 * 1e6) :
    interpolatedEfficiency kp nUser 1100 0 r1 r2 = none := by
  have c : clip 1100 0 r1 = 1100 := by unfold clip; rw [if_pos h, sub_zero]
  have l : lower 1100 = (1100, 10) := by
    unfold lower
    rw [if_pos (by norm_num)]
    have : ⌊(1100 : ℝ) / 10⌋₊ = 110 := by rw [show (1100 : ℝ) / 10 = ((110 : ℕ) : ℝ) by norm_num, Nat.floor_natCast]
    rw [this]
  have k : kernelIndex (1100 + 10) = 201 := by
    have : (1100 + 10 : ℕ) = node 201 := by unfold node; norm_num
    rw [this, kernelIndex_node]
  unfold interpolatedEfficiency
  simp only [c, l, k]
  have r : ∀ j, kp[vectorIndex 201 j nUser]? = none := by
    intro j
    rw [List.getElem?_eq_none_iff, vectorIndex_eq, hl]
    have := tri_mono (le_max_left 201 j)
    omega
  rw [r]
  generalize kp[vectorIndex (kernelIndex 1100) (kernelIndex (lower (clip 1100 0 r2)).1) nUser]? = o
  cases o <;> rfl

/-- a table of the size of the real ones; drops of 0.5 mm and 2 mm -/
example : ∃ e, interpolatedEfficiency (List.replicate 20301 1) 0 1100 1e-6 5e-4 2e-3 = some e ∧ 1 ≤ e ∧ e ≤ 1 := by
  refine eff_bounds _ 0 1e-6 5e-4 2e-3 1 1 (by rw [List.length_replicate]) (by norm_num) (by norm_num) (by norm_num) (by norm_num) ?_
  intro i hi j hj
  have h1 : max i j ≤ 200 := by omega
  have h2 := tri_mono h1
  unfold entry
  rw [List.getD_eq_getElem _ _ (by rw [List.length_replicate]; omega), List.getElem_replicate]
  exact ⟨le_refl _, le_refl _⟩

example : interpolatedEfficiency (List.replicate 20301 1) 0 1100 0 2e-3 1e-5 = none :=
  float_reads_outside _ 0 _ _ (by rw [List.length_replicate]) (by norm_num)

end
end LCP.Kernel
