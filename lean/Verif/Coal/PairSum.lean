import Verif.Coal.PairLoop
import Mathlib.Algebra.BigOperators.Group.Finset.Basic
import Mathlib.Algebra.BigOperators.Ring.Finset
import Mathlib.Tactic.Abel
import Mathlib.Tactic.Ring
import Mathlib.Data.Real.Basic

/-! # Sums under pair loops (helper lemmas) -/
namespace LCP.PairLoop
variable {α : Type*}

theorem sum_update1 (N p : ℕ) (hp : p < N) (F : ℕ → α → ℝ) (c : ℕ → α) (x : α) :
    ∑ q ∈ Finset.range N, F q (Function.update c p x q) =
      ∑ q ∈ Finset.range N, F q (c q) + (F p x - F p (c p)) := by
  have hm : p ∈ Finset.range N := by simpa using hp
  rw [← Finset.add_sum_erase _ _ hm, ← Finset.add_sum_erase _ (fun q => F q (c q)) hm]
  have : ∑ q ∈ (Finset.range N).erase p, F q (Function.update c p x q) =
      ∑ q ∈ (Finset.range N).erase p, F q (c q) := by
    apply Finset.sum_congr rfl
    intro q hq
    rw [Function.update_of_ne (Finset.ne_of_mem_erase hq)]
  rw [this]; simp; ring

/-- change of an extensive quantity caused by pair `p` -/
def delta (kind : ℕ → Kind) (f : ℕ → α → α → α × α) (F : ℕ → α → ℝ) (c : ℕ → α) (p : ℕ) : ℝ :=
  if kind p = .pair then
    F p (f p (c p) (c (p + 1))).1 + F (p + 1) (f p (c p) (c (p + 1))).2 - F p (c p) - F (p + 1) (c (p + 1))
  else 0

theorem sum_foldl (kind : ℕ → Kind) (g : ℕ → α → α) (f : ℕ → α → α → α × α)
    (hdis : ∀ p, kind p = .pair → kind (p + 1) = .skip) (N : ℕ) (hN : ∀ p, kind p ≠ .skip → p + 1 < N)
    (F : ℕ → α → ℝ) (hg : ∀ p x, F p (g p x) = F p x)
    (L : List ℕ) (hn : L.Nodup) (c : ℕ → α) :
    ∑ q ∈ Finset.range N, F q (L.foldl (step kind g f) c q) =
      ∑ q ∈ Finset.range N, F q (c q) + (L.map (delta kind f F c)).sum := by
  induction L generalizing c with
  | nil => simp
  | cons p t ih =>
    rw [List.nodup_cons] at hn
    rw [List.foldl_cons, ih hn.2]
    have hd : ∀ r ∈ t, delta kind f F (step kind g f c p) r = delta kind f F c r := by
      intro r hr
      unfold delta
      by_cases hk : kind r = .pair
      · have hrp : r ≠ p := fun h => hn.1 (h ▸ hr)
        have hr1 : r + 1 ≠ p ∨ kind p = .skip := by
          by_cases h : r + 1 = p
          · right; rw [← h]; exact hdis r hk
          · left; exact h
        have h1 : step kind g f c p r = c r := by
          unfold step
          cases hkp : kind p with
          | skip => rfl
          | single => simp [Function.update_of_ne hrp]
          | pair =>
            have : r ≠ p + 1 := by
              intro h; have := hdis p hkp; rw [← h, hk] at this; exact absurd this (by decide)
            simp [Function.update_of_ne hrp, Function.update_of_ne this]
        have h2 : step kind g f c p (r + 1) = c (r + 1) := by
          unfold step
          cases hkp : kind p with
          | skip => rfl
          | single =>
            rcases hr1 with h | h
            · simp [Function.update_of_ne h]
            · rw [hkp] at h; exact absurd h (by decide)
          | pair =>
            rcases hr1 with h | h
            · have : r + 1 ≠ p + 1 := by omega
              dsimp only
              rw [Function.update_of_ne this, Function.update_of_ne h]
            · rw [hkp] at h; exact absurd h (by decide)
        simp only [h1, h2]
      · simp [hk]
    rw [List.map_congr_left hd, List.map_cons, List.sum_cons]
    have : ∑ q ∈ Finset.range N, F q (step kind g f c p q) =
        ∑ q ∈ Finset.range N, F q (c q) + delta kind f F c p := by
      unfold step delta
      cases hk : kind p with
      | skip => simp
      | single =>
        have := hN p (by simp [hk])
        simp only [reduceCtorEq, if_false]
        rw [sum_update1 N p (by omega), hg]; ring
      | pair =>
        have := hN p (by simp [hk])
        simp only [if_true]
        rw [sum_update1 N (p + 1) (by omega), sum_update1 N p (by omega)]
        have : p + 1 ≠ p := by omega
        rw [Function.update_of_ne this]
        ring
    rw [this]; ring

/-- The sum of an extensive quantity after a complete pair loop. -/
theorem sum_apply (kind : ℕ → Kind) (g : ℕ → α → α) (f : ℕ → α → α → α × α)
    (hdis : ∀ p, kind p = .pair → kind (p + 1) = .skip) (N : ℕ) (hN : ∀ p, kind p ≠ .skip → p + 1 < N)
    (F : ℕ → α → ℝ) (hg : ∀ p x, F p (g p x) = F p x) (c : ℕ → α) :
    ∑ q ∈ Finset.range N, F q (apply kind g f c q) =
      ∑ q ∈ Finset.range N, F q (c q) + ((List.range (N - 1)).map (delta kind f F c)).sum := by
  rw [← foldl_eq_apply kind g f hdis (List.range (N - 1)) List.nodup_range]
  · exact sum_foldl kind g f hdis N hN F hg _ List.nodup_range c
  · intro p hp; have := hN p hp; rw [List.mem_range]; omega

end LCP.PairLoop
