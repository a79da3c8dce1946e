import Verif.Blk1m.RhsProps

/-!
# Koenig's coefficients of ice growth are interpolated linearly in temperature

Source: include/libcloudph++/blk_1m/formulae.hpp:216-262 (model in Verif.Blk1m.Formulae).
-/
namespace LCP.Blk1m
open LCP.Common

/-- between two neighbouring entries -/
theorem interpTab_between (tab : List ℝ) (oob : ℝ) (k : ℕ) (hk : k < 31) (s : ℝ) (h0 : 0 ≤ s) (h1 : s ≤ 1) :
    interpTab tab oob (273.16 - k - s) = (1 - s) * tab.getD k oob + s * tab.getD (k + 1) oob := by
  have hkR : (k : ℝ) ≤ 30 := by exact_mod_cast (by omega : k ≤ 30)
  have hk0 : (0 : ℝ) ≤ k := Nat.cast_nonneg k
  have ht : ttcoe (273.16 - k - s) = -(k + s) := by
    unfold ttcoe
    rw [max_eq_right (by linarith), min_eq_right (by linarith)]; ring
  unfold interpTab index1
  simp only [ht, neg_neg]
  rcases lt_or_eq_of_le h1 with h | h
  · have hf : ⌊(k : ℝ) + s⌋₊ = k := by
      rw [Nat.floor_eq_iff (by linarith)]; exact ⟨by linarith, by linarith⟩
    rw [hf]; ring
  · subst h
    have hf : ⌊(k : ℝ) + 1⌋₊ = k + 1 := by
      rw [Nat.floor_eq_iff (by linarith)]; push_cast; exact ⟨by linarith, by linarith⟩
    rw [hf]; push_cast; ring

/-- **C50.** At `k + s` degrees below 273.16 K, with `k` a whole number below 31 and `0 ≤ s ≤ 1`, both coefficients are the linear interpolation between
the entries of their tables for `k` and `k + 1` degrees of frost, whatever lies in memory behind the tables. -/
theorem koenig_interpolates (oob : ℝ) (k : ℕ) (hk : k < 31) (s : ℝ) (h0 : 0 ≤ s) (h1 : s ≤ 1) :
    coeffAlpha oob (273.16 - k - s) = (1 - s) * alphaList[k]'(by simpa [alphaList] using (by omega : k < 32)) + s * alphaList[k + 1]'(by simpa [alphaList] using (by omega : k + 1 < 32)) ∧
    coeffBeta oob (273.16 - k - s) = (1 - s) * betaList[k]'(by simpa [betaList] using (by omega : k < 32)) + s * betaList[k + 1]'(by simpa [betaList] using (by omega : k + 1 < 32)) := by
  unfold coeffAlpha coeffBeta
  rw [interpTab_between _ _ k hk s h0 h1, interpTab_between _ _ k hk s h0 h1]
  constructor <;> simp only [List.getD_eq_getElem?_getD]
  · rw [List.getElem?_eq_getElem (by simpa [alphaList] using (by omega : k < 32)), List.getElem?_eq_getElem (by simpa [alphaList] using (by omega : k + 1 < 32))]; rfl
  · rw [List.getElem?_eq_getElem (by simpa [betaList] using (by omega : k < 32)), List.getElem?_eq_getElem (by simpa [betaList] using (by omega : k + 1 < 32))]; rfl

/-- **C50.** Ice does not grow by these laws at and above 273.16 K; below −31 °C the coefficients are those of −31 °C. -/
theorem koenig_limits (oob T : ℝ) :
    (273.16 ≤ T → coeffAlpha oob T = 0 ∧ coeffBeta oob T = 0) ∧ (T ≤ 242.16 → coeffAlpha oob T = 0.4834e-6 ∧ coeffBeta oob T = 0.4361) := by
  constructor
  · intro hT
    have ht : ttcoe T = 0 := by unfold ttcoe; rw [min_eq_left (le_max_of_le_right (by linarith))]
    unfold coeffAlpha coeffBeta interpTab index1
    simp only [ht]
    norm_num [alphaList, betaList]
  · intro hT
    have ht : ttcoe T = -31 := by
      unfold ttcoe
      rw [max_eq_left (by norm_num at hT ⊢; linarith)]; norm_num
    unfold coeffAlpha coeffBeta interpTab index1
    simp only [ht]
    norm_num [alphaList, betaList]

/-- **C50.** Values of Koenig's table 2 at −1 °C, −7 °C, −15 °C (fastest growth) and −30 °C. -/
theorem koenig_table (oob : ℝ) :
    (coeffAlpha oob 272.16 = 0.7939e-7 ∧ coeffBeta oob 272.16 = 0.4006) ∧ (coeffAlpha oob 266.16 = 0.1852e-5 ∧ coeffBeta oob 266.16 = 0.4888) ∧
    (coeffAlpha oob 258.16 = 0.3348e-4 ∧ coeffBeta oob 258.16 = 0.5813) ∧ (coeffAlpha oob 243.16 = 0.533e-6 ∧ coeffBeta oob 243.16 = 0.4382) := by
  have h := fun k (hk : k < 31) => koenig_interpolates oob k hk 0 le_rfl zero_le_one
  refine ⟨?_, ?_, ?_, ?_⟩
  · have := h 1 (by norm_num); norm_num [alphaList, betaList] at this ⊢; exact this
  · have := h 7 (by norm_num); norm_num [alphaList, betaList] at this ⊢; exact this
  · have := h 15 (by norm_num); norm_num [alphaList, betaList] at this ⊢; exact this
  · have := h 30 (by norm_num); norm_num [alphaList, betaList] at this ⊢; exact this

end LCP.Blk1m
