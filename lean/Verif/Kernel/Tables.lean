import Verif.Kernel.Laws
import Verif.Kernel.TabHall
import Verif.Kernel.TabHallDavis
import Verif.Kernel.TabHallPinskyGrav
import Verif.Kernel.TabHallPinskyCu
import Verif.Kernel.TabHallPinskySc
import Verif.Kernel.TabVohlDavis

/-!
# The tables of collision efficiencies themselves (C91)
-/
namespace LCP.Kernel

/-- number `j` (from the left) of the `n` seven-digit numbers in `x` -/
def digits7 (n x j : ℕ) : ℕ := x / 10 ^ (7 * (n - 1 - j)) % 10 ^ 7

/-- the lower triangular matrix, row after row, from row `n` on -/
def tri : List ℕ → ℕ → List ℕ
  | [], _ => []
  | x :: xs, n => (List.range (n + 1)).map (digits7 (n + 1) x) ++ tri xs (n + 1)

/-- the rows of each table (src/detail/kernel_definitions/*.hpp) -/
def rowsOf : Table → List ℕ
  | .hall => rowsHall
  | .hall_davis_no_waals => rowsHallDavis
  | .hall_pinsky_1000mb_grav => rowsHallPinskyGrav
  | .hall_pinsky_cumulonimbus => rowsHallPinskyCu
  | .hall_pinsky_stratocumulus => rowsHallPinskySc
  | .vohl_davis_no_waals => rowsVohlDavis

/-- `arr` of each table (src/detail/kernel_definitions/*.hpp), as exact decimal fractions -/
noncomputable def tables (t : Table) : List ℝ := (tri (rowsOf t) 0).map fun n : ℕ => (n : ℝ) / 1000000

/-! ### entries -/

/-- entry in row `i` and column `j`, in units of 1e-6 -/
def raw (rows : List ℕ) (i j : ℕ) : ℕ := digits7 (i + 1) (rows.getD i 0) j

/-- `i` rows -/
def T (i : ℕ) : ℕ := i * (i + 1) / 2

theorem T_succ (i : ℕ) : T (i + 1) = T i + (i + 1) := by
  unfold T
  have h : (i + 1) * (i + 1 + 1) = i * (i + 1) + 2 * (i + 1) := by ring
  rw [h]; omega

theorem tri_get (xs : List ℕ) : ∀ (n k j : ℕ), k < xs.length → j ≤ n + k →
    (tri xs n)[T (n + k) - T n + j]? = some (digits7 (n + k + 1) (xs.getD k 0) j) := by
  induction xs with
  | nil => intro n k j hk; simp at hk
  | cons x xs ih =>
    intro n k j hk hj
    cases k with
    | zero =>
      have : (List.range (n + 1)).length = n + 1 := List.length_range
      simp only [tri, Nat.add_zero, Nat.sub_self, Nat.zero_add]
      rw [List.getElem?_append_left (by simp; omega)]
      rw [List.getElem?_map, List.getElem?_range (by omega)]
      rfl
    | succ k =>
      have h1 : T n + (n + 1) ≤ T (n + (k + 1)) := by
        rw [← T_succ]
        exact tri_mono (by omega)
      simp only [tri]
      rw [List.getElem?_append_right (by simp; omega), List.length_map, List.length_range]
      have := ih (n + 1) k j (by simpa using hk) (by omega)
      rw [T_succ] at this
      rw [show n + (k + 1) = n + 1 + k by omega]
      rw [show T (n + 1 + k) - T n + j - (n + 1) = T (n + 1 + k) - (T n + (n + 1)) + j by
        rw [show n + 1 + k = n + (k + 1) by omega]; omega]
      rw [this]
      simp

theorem tri_length (xs : List ℕ) : ∀ n, (tri xs n).length = T (n + xs.length) - T n := by
  induction xs with
  | nil => intro n; simp [tri]
  | cons x xs ih =>
    intro n
    have h1 : T n + (n + 1) ≤ T (n + 1 + xs.length) := by
      rw [← T_succ]
      exact tri_mono (by omega)
    simp only [tri, List.length_append, List.length_map, List.length_range, ih, List.length_cons]
    rw [T_succ, show n + (xs.length + 1) = n + 1 + xs.length by omega]
    omega

theorem entry_eq_raw (t : Table) (hn : (rowsOf t).length = 201) (i j : ℕ) (hi : i ≤ 200) (hj : j ≤ i) (nUser : ℕ) (user : List ℝ) (hu : user.length = nUser) :
    entry (user ++ tables t) nUser i j = (raw (rowsOf t) i j : ℝ) / 1000000 := by
  have h := tri_get (rowsOf t) 0 i j (by omega) (by omega)
  simp only [Nat.zero_add, show T 0 = 0 from rfl, Nat.sub_zero] at h
  unfold entry
  rw [max_eq_left hj, min_eq_right hj, List.getD_eq_getElem?_getD, List.getElem?_append_right (by omega)]
  rw [show nUser + (i * (i + 1) / 2 + j) - user.length = T i + j by unfold T; omega]
  rw [tables, List.getElem?_map, h]
  rfl

/-! ### what is checked, row by row -/

/-- every row has the digits of its entries and the leading 1 only; entries do not exceed 4 -/
def rowOk (x i : ℕ) : Bool := Nat.beq (x / 10 ^ (7 * (i + 1))) 1 && (List.range (i + 1)).all fun j => Nat.ble (digits7 (i + 1) x j) 4000000

/-- at most one while one of the drops is smaller than 36 micrometers -/
def rowSmall (x i : ℕ) : Bool := (List.range (i + 1)).all fun j => Nat.ble 36 j || Nat.ble (digits7 (i + 1) x j) 1000000

/-- zero in columns below `m` -/
def rowZero (m x i : ℕ) : Bool := (List.range (i + 1)).all fun j => Nat.ble m j || Nat.beq (digits7 (i + 1) x j) 0

def allRows (f : ℕ → ℕ → Bool) (from_ : ℕ) : List ℕ → ℕ → Bool
  | [], _ => true
  | x :: xs, i => (decide (i < from_) || f x i) && allRows f from_ xs (i + 1)

theorem allRows_get (f : ℕ → ℕ → Bool) (m : ℕ) (xs : List ℕ) : ∀ n, allRows f m xs n = true →
    ∀ k < xs.length, m ≤ n + k → f (xs.getD k 0) (n + k) = true := by
  induction xs with
  | nil => intro n _ k hk; simp at hk
  | cons x xs ih =>
    intro n h k hk hm
    simp only [allRows, Bool.and_eq_true, Bool.or_eq_true, decide_eq_true_eq] at h
    cases k with
    | zero => rcases h.1 with h1 | h1
              · omega
              · simpa using h1
    | succ k =>
      have := ih (n + 1) h.2 k (by simpa using hk) (by omega)
      rw [show n + (k + 1) = n + 1 + k by omega]
      simpa using this

set_option maxRecDepth 100000 in
theorem rows_length (t : Table) : (rowsOf t).length = 201 := by
  cases t <;> decide +kernel

set_option maxRecDepth 100000 in
theorem rows_ok (t : Table) : allRows rowOk 0 (rowsOf t) 0 = true := by
  cases t <;> decide +kernel

set_option maxRecDepth 100000 in
theorem rows_small (t : Table) : allRows rowSmall 0 (rowsOf t) 0 = true := by
  cases t <;> decide +kernel

set_option maxRecDepth 100000 in
theorem rows_zero (t : Table) (h : t ≠ .vohl_davis_no_waals) : allRows (rowZero 15) 120 (rowsOf t) 0 = true := by
  cases t <;> first | (exact absurd rfl h) | decide +kernel

set_option maxRecDepth 100000 in
theorem rows_zero_zero (t : Table) : allRows (rowZero 1) 0 (rowsOf t) 0 = true := by
  cases t <;> decide +kernel

set_option maxRecDepth 100000 in
theorem pinsky_rows (t : Table) (h : t = .hall_pinsky_1000mb_grav ∨ t = .hall_pinsky_cumulonimbus ∨ t = .hall_pinsky_stratocumulus) :
    (rowsOf t).drop 22 = rowsHall.drop 22 := by
  rcases h with rfl | rfl | rfl <;> decide +kernel

set_option maxRecDepth 100000 in
theorem davis_rows : rowsHallDavis.drop 31 = rowsHall.drop 31 := by decide +kernel

set_option maxRecDepth 100000 in
theorem vohl_rows : rowsVohlDavis.take 31 = rowsHallDavis.take 31 := by decide +kernel

end LCP.Kernel
