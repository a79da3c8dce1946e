import Verif.Float.Model
import Verif.Float.Lemmas
import Verif.Float.Props

/-!
# C119: limits of the subdomains in floating-point arithmetic

Every position a device may hold, i.e. every representable number between its limits, should have a column of that device.
-/
namespace LCP.Float
open LCP.Grid LCP.Distmem

/-- **C119** on all devices but the last: every position below the limit has one of the device's columns (single precision) -/
theorem sub_interior {fl fq : ℝ → ℝ} (hp : Rounds 24 fl) (hq : Rounds 53 fq) {nx rank size : ℕ} (hnx : nx ≤ 2 ^ 29) {d x1 x : ℝ}
    (hx : x ∈ F 24) (hd : d ∈ F 24) (hd0 : 0 < d) (hr : rank < size - 1) (hx0 : 0 ≤ x) (hx1 : x < subX1 fl nx rank size d x1) :
    ∃ i, cellIdx fq d x = some i ∧ i < nx / size ∧ i * d ≤ x ∧ x < (i + 1) * d := by
  have e : getDevNx nx rank size = nx / size := by unfold getDevNx; rw [if_pos hr]
  unfold subX1 at hx1
  rw [if_pos (by omega), e] at hx1
  exact cell_single_in_range hp hq (le_trans (Nat.div_le_self _ _) hnx) hx hd hd0 hx0 hx1 le_rfl

/-- columns of the last device -/
theorem last_columns {nx size : ℕ} (hs : 0 < size) : (size - 1) * getDevNx nx 0 size + getDevNx nx (size - 1) size = nx := by
  unfold getDevNx
  rw [if_neg (lt_irrefl _)]
  by_cases h : size = 1
  · subst h; simp
  · rw [if_pos (by omega)]
    have h1 : (size - 1) * (nx / size) ≤ nx :=
      le_trans (Nat.mul_le_mul_right _ (by omega)) (Nat.mul_div_le nx size)
    omega

/-- **C119** on the last device, whatever the rounding did, the index is at most one too large (single precision, up to a million columns) -/
theorem sub_last_partial {fl fq : ℝ → ℝ} (hp : Rounds 24 fl) (hq : Rounds 53 fq) {nx size : ℕ} (hnx : nx ≤ 2 ^ 20) (hs : 0 < size)
    {d x1 x : ℝ} (hx : x ∈ F 24) (hd : d ∈ F 24) (hd0 : 0 < d) (hdom : x1 ≤ fl (nx * d)) (hx0 : 0 ≤ x)
    (hx1 : x < subX1 fl nx (size - 1) size d x1) :
    ∃ i, cellIdx fq d x = some i ∧ i ≤ getDevNx nx (size - 1) size := by
  have hsum := last_columns (nx := nx) hs
  obtain ⟨nb, hnb⟩ : ∃ nb, nb = (size - 1) * getDevNx nx 0 size := ⟨_, rfl⟩
  obtain ⟨nl, hnl⟩ : ∃ nl, nl = getDevNx nx (size - 1) size := ⟨_, rfl⟩
  unfold subX1 at hx1
  rw [if_neg (by simp), ← hnb] at hx1
  rw [← hnb, ← hnl] at hsum
  rw [← hnl]
  have hlt := lt_of_lt_round hp hx hx1
  have a := abs_le.1 (rel_error (by norm_num) (hp (nx * d)))
  have b := abs_le.1 (rel_error (by norm_num) (hp (nb * d)))
  have hN : (nx : ℝ) ≤ 2 ^ 20 := by exact_mod_cast hnx
  have hB : (nb : ℝ) ≤ nx := by exact_mod_cast (show nb ≤ nx by omega)
  have hS : (nx : ℝ) = nb + nl := by rw [← hsum]; push_cast; ring
  have e24 : (2 : ℝ) ^ (-((24 : ℕ) : ℤ)) = 1 / 2 ^ 24 := by rw [zpow_neg, zpow_natCast]; norm_num
  rw [e24, abs_of_nonneg (by positivity)] at a b
  have c1 : (nx : ℝ) * d ≤ 2 ^ 20 * d := mul_le_mul_of_nonneg_right hN hd0.le
  have c2 : (nb : ℝ) * d ≤ nx * d := mul_le_mul_of_nonneg_right hB hd0.le
  have c3 : (nx : ℝ) * d = nb * d + nl * d := by rw [hS]; ring
  have hup : x < (nl + 1) * d := by
    rw [add_mul, one_mul]
    generalize fl (nx * d) = f1 at *
    generalize fl (nb * d) = f2 at *
    norm_num at a b c1
    linarith [a.1, a.2, b.1, b.2]
  have hq0 := div_nonneg hx0 hd0.le
  have hfl : ⌊x / d⌋₊ < nl + 1 := (Nat.floor_lt hq0).2 ((div_lt_iff₀ hd0).2 (by push_cast; exact hup))
  have e1 := (le_div_iff₀ hd0).1 (Nat.floor_le hq0)
  have e2 := (div_lt_iff₀ hd0).1 (Nat.lt_floor_add_one (x / d))
  exact ⟨_, cell_single_exact hq hx hd hd0 (by norm_num at hnx ⊢; omega) e1 e2, by omega⟩

/-- **C119** if the domain, the part to the left of the last device and that device are a representable number of metres long, every
position of the last device has one of its columns -/
theorem sub_last_exact_partial {fl fq : ℝ → ℝ} (hp : Rounds 24 fl) (hq : Rounds 53 fq) {nx size : ℕ} (hnx : nx ≤ 2 ^ 29) (hs : 0 < size)
    {d x1 x : ℝ} (hx : x ∈ F 24) (hd : d ∈ F 24) (hd0 : 0 < d) (hdom : x1 ≤ fl (nx * d)) (hF : nx * d ∈ F 24)
    (hB : ((size - 1) * getDevNx nx 0 size : ℕ) * d ∈ F 24) (hx0 : 0 ≤ x) (hx1 : x < subX1 fl nx (size - 1) size d x1) :
    ∃ i, cellIdx fq d x = some i ∧ i < getDevNx nx (size - 1) size := by
  have hsum := last_columns (nx := nx) hs
  obtain ⟨nb, hnb⟩ : ∃ nb, nb = (size - 1) * getDevNx nx 0 size := ⟨_, rfl⟩
  obtain ⟨nl, hnl⟩ : ∃ nl, nl = getDevNx nx (size - 1) size := ⟨_, rfl⟩
  unfold subX1 at hx1
  rw [if_neg (by simp), ← hnb] at hx1
  rw [← hnb, ← hnl] at hsum
  rw [← hnb] at hB
  rw [← hnl]
  have hlt := lt_of_lt_round hp hx hx1
  rw [nearest_self (hp _) hF] at hdom
  rw [nearest_self (hp _) hB] at hlt
  have hS : (nx : ℝ) * d = nb * d + nl * d := by rw [← hsum]; push_cast; ring
  have hup : x < nl * d := by linarith
  have hq0 := div_nonneg hx0 hd0.le
  have hfl : ⌊x / d⌋₊ < nl := (Nat.floor_lt hq0).2 ((div_lt_iff₀ hd0).2 hup)
  have e1 := (le_div_iff₀ hd0).1 (Nat.floor_le hq0)
  have e2 := (div_lt_iff₀ hd0).1 (Nat.lt_floor_add_one (x / d))
  exact ⟨_, cell_single_exact hq hx hd hd0 (by omega) e1 e2, hfl⟩

/-- 0.7 in single precision -/
noncomputable def d07 : ℝ := 11744051 * (2 : ℝ) ^ (-24 : ℤ)

/-- 2.8, a position on the last device -/
noncomputable def x28 : ℝ := 11744051 * (2 : ℝ) ^ (-22 : ℤ)

/-- **C119 is false in general**: seven columns of 0.7 m shared by two devices, single precision.  The second device holds four columns;
the position 2.8 m is below its upper limit, and it is given the index of a fifth column -/
theorem sub_last_out_of_range {fl fq : ℝ → ℝ} (hp : Rounds 24 fl) (hq : Rounds 53 fq) :
    d07 ∈ F 24 ∧ x28 ∈ F 24 ∧ 0 < x28 ∧ x28 < subX1 fl 7 1 2 d07 (fl (7 * d07)) ∧ getDevNx 7 1 2 = 4 ∧ cellIdx fq d07 x28 = some 4 := by
  have h7 : fl (7 * d07) = (10276045 : ℤ) * (2 : ℝ) ^ (-21 : ℤ) := by
    refine round_eval hp _ _ (by norm_num) (by norm_num) (by norm_num) ?_
    unfold d07; rw [abs_lt]; norm_num
  have h3 : fl (3 * d07) = (8808038 : ℤ) * (2 : ℝ) ^ (-22 : ℤ) := by
    refine round_eval hp _ _ (by norm_num) (by norm_num) (by norm_num) ?_
    unfold d07; rw [abs_lt]; norm_num
  have hd : fl (fl (7 * d07) - fl (3 * d07)) = (11744052 : ℤ) * (2 : ℝ) ^ (-22 : ℤ) := by
    refine round_eval hp _ _ (by norm_num) (by norm_num) (by norm_num) ?_
    rw [h7, h3, abs_lt]; norm_num
  have hdF : d07 ∈ F 24 := ⟨11744051, -24, by norm_num, by unfold d07; norm_num⟩
  have hxF : x28 ∈ F 24 := ⟨11744051, -22, by norm_num, by unfold x28; norm_num⟩
  have h4 : x28 = 4 * d07 := by unfold x28 d07; norm_num
  have hd0 : 0 < d07 := by unfold d07; norm_num
  refine ⟨hdF, hxF, by rw [h4]; linarith, ?_, by decide, ?_⟩
  · have e : subX1 fl 7 1 2 d07 (fl (7 * d07)) = fl (fl (7 * d07) - fl (3 * d07)) := by
      unfold subX1
      rw [if_neg (by norm_num), show 1 * getDevNx 7 0 2 = 3 by decide]; norm_num
    rw [e, hd]; unfold x28; norm_num
  · exact cell_single_exact hq hxF hdF hd0 (by norm_num) (by rw [h4]; norm_num) (by rw [h4]; norm_num; linarith)

/-- the premises of `sub_last_exact_partial` hold for 75 columns of 100 m on four devices -/
example {fl fq : ℝ → ℝ} (hp : Rounds 24 fl) (hq : Rounds 53 fq) :
    ∃ i, cellIdx fq 100 2099 = some i ∧ i < getDevNx 75 3 4 := by
  have hF : ∀ n : ℕ, n ≤ 2 ^ 24 → (n : ℝ) ∈ F 24 := fun n hn => nat_mem (by norm_num) hn
  have e1 : getDevNx 75 3 4 = 21 := by decide
  have e2 : (4 - 1) * getDevNx 75 0 4 = 54 := by decide
  have h75 : ((75 : ℕ) : ℝ) * 100 ∈ F 24 := by have := hF 7500 (by norm_num); norm_num at this ⊢; exact this
  have h54 : ((54 : ℕ) : ℝ) * 100 ∈ F 24 := by have := hF 5400 (by norm_num); norm_num at this ⊢; exact this
  have h21 : (2100 : ℝ) ∈ F 24 := by simpa using hF 2100 (by norm_num)
  refine sub_last_exact_partial hp hq (nx := 75) (size := 4) (d := 100) (x1 := 7500) (x := 2099) (by norm_num) (by norm_num)
    (by simpa using hF 2099 (by norm_num)) (by simpa using hF 100 (by norm_num)) (by norm_num) ?_ h75 (by rw [e2]; exact h54) (by norm_num) ?_
  · rw [nearest_self (hp _) h75]; norm_num
  · unfold subX1
    rw [if_neg (by norm_num), e2, nearest_self (hp _) h54]
    norm_num
    rw [nearest_self (hp _) h21]; norm_num

/-- and those of `sub_interior` for the first of them -/
example {fl fq : ℝ → ℝ} (hp : Rounds 24 fl) (hq : Rounds 53 fq) :
    ∃ i, cellIdx fq 100 1799 = some i ∧ i < 75 / 4 ∧ i * 100 ≤ (1799 : ℝ) ∧ (1799 : ℝ) < (i + 1) * 100 := by
  have hF : ∀ n : ℕ, n ≤ 2 ^ 24 → (n : ℝ) ∈ F 24 := fun n hn => nat_mem (by norm_num) hn
  have e1 : getDevNx 75 0 4 = 18 := by decide
  have h18 : (1800 : ℝ) ∈ F 24 := by simpa using hF 1800 (by norm_num)
  refine sub_interior hp hq (nx := 75) (rank := 0) (size := 4) (d := 100) (x1 := 7500) (x := 1799) (by norm_num)
    (by simpa using hF 1799 (by norm_num)) (by simpa using hF 100 (by norm_num)) (by norm_num) (by norm_num) (by norm_num) ?_
  unfold subX1
  rw [if_pos (by norm_num), e1]
  norm_num
  rw [nearest_self (hp _) h18]; norm_num

end LCP.Float
