import Verif.Float.Model
import Verif.Bcnd.Props
import Mathlib.Tactic.Cases

/-! # Lemmas on rounding used by the theorems on positions -/
namespace LCP.Float
open LCP.Grid LCP.Bcnd

/-- the value of a rounding, from a numeral within half a unit in the last place -/
theorem round_eval {p : ℕ} {fl : ℝ → ℝ} (h : Rounds p fl) {x : ℝ} (k e : ℤ) (hp : 1 ≤ p) (h1 : 2 ^ (p - 1) < k) (h2 : k < 2 ^ p)
    (hx : |x - k * (2 : ℝ) ^ e| < (2 : ℝ) ^ e / 2) : fl x = k * (2 : ℝ) ^ e := by
  obtain ⟨u, hu⟩ : ∃ u : ℝ, u = 2 ^ e := ⟨_, rfl⟩
  have hu0 : 0 < u := hu ▸ two_zpow_pos _
  have hm : (k : ℝ) * (2 : ℝ) ^ e ∈ F p := ⟨k, e, by rw [abs_of_pos (lt_trans (by positivity) h1)]; exact h2, rfl⟩
  have hz := (h x).2 _ hm
  have hk : (2 : ℝ) ^ (p - 1) + 1 ≤ k := by exact_mod_cast h1
  rw [← hu] at hx hz ⊢
  have hd : |fl x - k * u| < u := by
    have : fl x - k * u = (fl x - x) + (x - k * u) := by ring
    rw [this]
    refine lt_of_le_of_lt (abs_add_le _ _) ?_
    rw [abs_sub_comm x] at hx ⊢
    linarith
  have hd' := abs_lt.1 hd
  have hlow : (2 : ℝ) ^ ((p : ℤ) - 1 + e) ≤ fl x := by
    have : (2 : ℝ) ^ ((p : ℤ) - 1 + e) = 2 ^ (p - 1) * u := by
      rw [zpow_add₀ (by norm_num), ← hu, ← zpow_natCast]; congr 2; push_cast [hp]; ring
    rw [this]
    nlinarith
  obtain ⟨j, hj⟩ := multiple (h x).1 (le_trans hlow (le_abs_self _))
  rw [show (p : ℤ) - 1 + e + 1 - p = e by ring, ← hu] at hj
  have : |((j - k : ℤ) : ℝ)| < 1 := by
    have h3 : fl x - k * u = ((j - k : ℤ) : ℝ) * u := by rw [hj]; push_cast; ring
    rw [h3, abs_mul, abs_of_pos hu0] at hd
    nlinarith [abs_nonneg ((j - k : ℤ) : ℝ)]
  have : |j - k| < 1 := by exact_mod_cast this
  have : j = k := by have := Int.abs_lt_one_iff.1 this; omega
  rw [hj, this]

/-- a quotient below `n` by a margin of `2^-p` stays below `n` when rounded to `q` bits -/
theorem quotient_below {p q n : ℕ} {t y : ℝ} (hq : 1 ≤ q) (hpq : p ≤ q) (hn : 0 < n) (hn2 : n ≤ 2 ^ (q - p)) (ht : 0 ≤ t)
    (hgap : (2 : ℝ) ^ (-(p : ℤ)) ≤ n - t) (h : Nearest q t y) : y < n := by
  have hn' : (0 : ℝ) < n := by exact_mod_cast hn
  obtain ⟨m, h1, h2⟩ := exists_mem_Ioc_zpow hn' (by norm_num : (1 : ℝ) < 2)
  have hp0 := two_zpow_pos (-(p : ℤ))
  have he := abs_error hq h (m := m) (by rw [abs_of_nonneg ht]; linarith)
  have hm : m < (q - p : ℕ) := by
    have : (2 : ℝ) ^ m < 2 ^ ((q - p : ℕ) : ℤ) := by
      rw [zpow_natCast]; exact lt_of_lt_of_le h1 (by exact_mod_cast hn2)
    exact (zpow_lt_zpow_iff_right₀ (by norm_num)).1 this
  have hlt : (2 : ℝ) ^ (m - (q : ℤ)) < 2 ^ (-(p : ℤ)) := by
    refine zpow_lt_zpow_right₀ (by norm_num) ?_
    push_cast [hpq] at hm
    omega
  have := (abs_le.1 he).2
  linarith

/-- the exact quotient of two `p`-bit numbers is never closer than `2^-p` below an integer -/
theorem quotient_gap {p n : ℕ} {x d : ℝ} (hx : x ∈ F p) (hd : d ∈ F p) (hd0 : 0 < d) (hx0 : 0 ≤ x) (hlt : x < n * d) :
    (2 : ℝ) ^ (-(p : ℤ)) ≤ n - x / d := by
  have key : d * (2 : ℝ) ^ (-(p : ℤ)) ≤ n * d - x := by
    obtain ⟨m, h1, h2⟩ := exists_mem_Ico_zpow hd0 (by norm_num : (1 : ℝ) < 2)
    have hp1 : (2 : ℝ) ^ (-(p : ℤ)) ≤ 1 := zpow_le_one_of_nonpos₀ (by norm_num) (by omega)
    have hn : 1 ≤ n := by
      by_contra hc
      have : n = 0 := by omega
      subst this; simp at hlt; linarith
    by_cases hxm : (2 : ℝ) ^ m ≤ x
    · obtain ⟨i, hi⟩ := multiple hx (le_trans hxm (le_abs_self x))
      obtain ⟨j, hj⟩ := multiple hd (le_trans h1 (le_abs_self d))
      obtain ⟨u, hu⟩ : ∃ u : ℝ, u = 2 ^ (m + 1 - (p : ℤ)) := ⟨_, rfl⟩
      have hu0 : 0 < u := hu ▸ two_zpow_pos _
      have hle : d * (2 : ℝ) ^ (-(p : ℤ)) ≤ u := by
        rw [hu, sub_eq_add_neg, zpow_add₀ (by norm_num : (2 : ℝ) ≠ 0) (m + 1)]
        exact mul_le_mul_of_nonneg_right h2.le (two_zpow_pos _).le
      rw [← hu] at hi hj
      have hij : i < n * j := by
        rw [hi, hj, ← mul_assoc] at hlt
        have := lt_of_mul_lt_mul_right hlt hu0.le
        exact_mod_cast this
      have hij' : (i : ℝ) + 1 ≤ n * j := by exact_mod_cast hij
      refine le_trans hle ?_
      rw [hi, hj]
      nlinarith
    · push Not at hxm
      rcases Nat.lt_or_ge 1 n with h | h
      · have : (2 : ℝ) ≤ n := by exact_mod_cast h
        nlinarith
      · have : n = 1 := by omega
        subst this
        have := gap hx hd hd0 (by linarith)
        simpa using this
  rw [le_sub_iff_add_le, ← le_sub_iff_add_le', div_le_iff₀ hd0]
  nlinarith

theorem toSizeT_nonneg {t : ℝ} (h0 : 0 ≤ t) (h1 : t < 2 ^ 64) : toSizeT t = some ⌊t⌋₊ := by
  unfold toSizeT; rw [if_pos ⟨by linarith, h1⟩]

/-- what is stored below a rounded limit is below the exact one -/
theorem lt_of_lt_round {p : ℕ} {fl : ℝ → ℝ} (h : Rounds p fl) {x y : ℝ} (hx : x ∈ F p) (hlt : x < fl y) : x < y := by
  by_contra hc
  push Not at hc
  linarith [nearest_le (h y) hx hc]

/-- the C++ `fmod` of two representable numbers is representable: computing it involves no rounding -/
theorem fmod_mem {p : ℕ} {s L : ℝ} (hs : s ∈ F p) (hL : L ∈ F p) (hL0 : 0 < L) : fmod s L ∈ F p := by
  have habs : |fmod s L| < L ∧ |fmod s L| ≤ |s| := by
    unfold fmod trunc
    split_ifs with h
    · have h1 := Int.floor_le (s / L)
      have h2 := Int.lt_floor_add_one (s / L)
      have h3 : (0 : ℝ) ≤ ⌊s / L⌋ := by exact_mod_cast Int.floor_nonneg.2 h
      rw [le_div_iff₀ hL0] at h1
      rw [div_lt_iff₀ hL0] at h2
      have hs0 : 0 ≤ s := by
        have := mul_nonneg h hL0.le
        rwa [div_mul_cancel₀ _ hL0.ne'] at this
      rw [abs_of_nonneg (by linarith), abs_of_nonneg hs0]
      exact ⟨by linarith, by nlinarith⟩
    · push Not at h
      have h1 := Int.le_ceil (s / L)
      have h2 := Int.ceil_lt_add_one (s / L)
      have h3 : ((⌈s / L⌉ : ℤ) : ℝ) ≤ 0 := by exact_mod_cast Int.ceil_le.2 (by push_cast; exact h.le)
      rw [div_le_iff₀ hL0] at h1
      rw [← sub_lt_iff_lt_add, lt_div_iff₀ hL0] at h2
      have hs0 : s ≤ 0 := by
        have := mul_nonpos_of_nonpos_of_nonneg h.le hL0.le
        rwa [div_mul_cancel₀ _ hL0.ne'] at this
      rw [abs_of_nonpos (by linarith), abs_of_nonpos hs0]
      exact ⟨by linarith, by nlinarith⟩
  obtain ⟨k, e, hk, hs'⟩ := hs
  obtain ⟨l, f, hl, hL'⟩ := hL
  obtain ⟨n, hn⟩ : ∃ n : ℤ, fmod s L = s - n * L := ⟨_, rfl⟩
  have key : ∀ (j g c : ℤ), |c| < 2 ^ p → fmod s L = j * (2 : ℝ) ^ g → |fmod s L| ≤ |(c : ℝ)| * 2 ^ g → fmod s L ∈ F p := by
    intro j g c hc hj hb
    refine ⟨j, g, ?_, hj⟩
    rw [hj, abs_mul, abs_of_pos (two_zpow_pos g)] at hb
    have : |(j : ℝ)| ≤ |(c : ℝ)| := le_of_mul_le_mul_right hb (two_zpow_pos g)
    have : |j| ≤ |c| := by exact_mod_cast this
    omega
  rcases le_total e f with hef | hef
  · obtain ⟨d, hd⟩ : ∃ d : ℕ, f = e + d := ⟨(f - e).toNat, by omega⟩
    refine key (k - n * l * 2 ^ d) e k hk ?_ ?_
    · rw [hn, hs', hL', hd, zpow_add₀ (by norm_num), zpow_natCast]; push_cast; ring
    · refine le_trans habs.2 ?_
      rw [hs', abs_mul, abs_of_pos (two_zpow_pos e)]
  · obtain ⟨d, hd⟩ : ∃ d : ℕ, e = f + d := ⟨(e - f).toNat, by omega⟩
    refine key (k * 2 ^ d - n * l) f l hl ?_ ?_
    · rw [hn, hs', hL', hd, zpow_add₀ (by norm_num), zpow_natCast]; push_cast; ring
    · refine le_trans habs.1.le ?_
      rw [hL', ← abs_of_pos (two_zpow_pos f), ← abs_mul, abs_of_pos (two_zpow_pos f), ← hL']
      exact le_abs_self _

theorem nearest_pos {p : ℕ} (hp : 1 ≤ p) {x y : ℝ} (h : Nearest p x y) (hx : 0 < x) : 0 < y := by
  obtain ⟨m, h1, _⟩ := exists_mem_Ico_zpow hx (by norm_num : (1 : ℝ) < 2)
  exact lt_of_lt_of_le (two_zpow_pos m) (le_nearest h (zpow_mem hp m) h1)

end LCP.Float
