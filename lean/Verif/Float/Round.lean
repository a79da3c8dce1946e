import Mathlib.Data.Real.Basic
import Mathlib.Algebra.Order.Archimedean.Real.Basic
import Mathlib.Algebra.Order.Floor.Ring
import Mathlib.Algebra.Order.Archimedean.Basic
import Mathlib.Tactic.Ring
import Mathlib.Tactic.Linarith
import Mathlib.Tactic.FieldSimp
import Mathlib.Tactic.Positivity
import Mathlib.Tactic.NormNum

/-!
# Binary floating-point numbers of `p` significant bits

`real_t` is `float` (24 significant bits) or `double` (53): include/libcloudph++/lgrngn/particles.hpp instantiations in src/lib.cpp.  The model has
no largest and no smallest exponent: overflow, subnormal numbers, infinities and NaNs are left out.  An arithmetic operation is the
exact result followed by `fl`, any function returning a nearest representable number; how ties are broken is left open, so
the IEEE default (ties to even) is one of the functions covered.
-/
namespace LCP.Float

/-- the numbers with `p` significant bits -/
def F (p : ℕ) : Set ℝ := {x | ∃ k e : ℤ, |k| < 2 ^ p ∧ x = (k : ℝ) * (2 : ℝ) ^ e}

/-- `y` is a number with `p` significant bits and none is closer to `x` -/
def Nearest (p : ℕ) (x y : ℝ) : Prop := y ∈ F p ∧ ∀ z ∈ F p, |y - x| ≤ |z - x|

/-- `fl` rounds to nearest, to `p` significant bits -/
def Rounds (p : ℕ) (fl : ℝ → ℝ) : Prop := ∀ x, Nearest p x (fl x)

theorem two_zpow_pos (e : ℤ) : (0 : ℝ) < 2 ^ e := zpow_pos (by norm_num) e

theorem zero_mem (p : ℕ) : (0 : ℝ) ∈ F p := ⟨0, 0, by simp, by simp⟩

theorem neg_mem {p : ℕ} {x : ℝ} (h : x ∈ F p) : -x ∈ F p := by
  obtain ⟨k, e, hk, rfl⟩ := h
  exact ⟨-k, e, by rwa [abs_neg], by push_cast; ring⟩

theorem F_mono {p q : ℕ} (h : p ≤ q) {x : ℝ} (hx : x ∈ F p) : x ∈ F q := by
  obtain ⟨k, e, hk, rfl⟩ := hx
  exact ⟨k, e, lt_of_lt_of_le hk (pow_le_pow_right₀ (by norm_num) h), rfl⟩

/-- a multiple of `2^e` by an integer of at most `2^p` is representable -/
theorem mem_of_le {p : ℕ} (hp : 1 ≤ p) {k : ℤ} (e : ℤ) (h : |k| ≤ 2 ^ p) : (k : ℝ) * (2 : ℝ) ^ e ∈ F p := by
  rcases lt_or_eq_of_le h with h | h
  · exact ⟨k, e, h, rfl⟩
  · have h1 : (1 : ℤ) < 2 ^ p := one_lt_pow₀ (by norm_num) (by omega)
    rcases abs_eq (by positivity) |>.1 h with h | h
    · refine ⟨1, e + p, by simpa using h1, ?_⟩
      rw [h, zpow_add₀ (by norm_num), zpow_natCast]; push_cast; ring
    · refine ⟨-1, e + p, by simpa using h1, ?_⟩
      rw [h, zpow_add₀ (by norm_num), zpow_natCast]; push_cast; ring

theorem nat_mem {p : ℕ} {n : ℕ} (hp : 1 ≤ p) (h : n ≤ 2 ^ p) : (n : ℝ) ∈ F p := by
  have := mem_of_le hp (k := (n : ℤ)) 0 (by rw [abs_of_nonneg (by positivity)]; exact_mod_cast h)
  simpa using this

theorem zpow_mem {p : ℕ} (hp : 1 ≤ p) (e : ℤ) : (2 : ℝ) ^ e ∈ F p := by
  have := mem_of_le hp (k := 1) e (by simpa using one_le_pow₀ (by norm_num : (1 : ℤ) ≤ 2))
  simpa using this

/-- scaling by a power of two is exact -/
theorem scale_mem {p : ℕ} {x : ℝ} (h : x ∈ F p) (e : ℤ) : x * (2 : ℝ) ^ e ∈ F p := by
  obtain ⟨k, f, hk, rfl⟩ := h
  exact ⟨k, f + e, hk, by rw [zpow_add₀ (by norm_num)]; ring⟩

/-- a representable number of size at least `2^m` is a multiple of `2^(m+1-p)` -/
theorem multiple {p : ℕ} {x : ℝ} (h : x ∈ F p) {m : ℤ} (hm : (2 : ℝ) ^ m ≤ |x|) :
    ∃ j : ℤ, x = (j : ℝ) * (2 : ℝ) ^ (m + 1 - p) := by
  obtain ⟨k, e, hk, rfl⟩ := h
  have he : m < p + e := by
    rw [abs_mul, abs_of_pos (two_zpow_pos e)] at hm
    have h1 : |(k : ℝ)| < 2 ^ p := by exact_mod_cast hk
    have : (2 : ℝ) ^ m < 2 ^ ((p : ℤ) + e) := by
      rw [zpow_add₀ (by norm_num), zpow_natCast]
      exact lt_of_le_of_lt hm (mul_lt_mul_of_pos_right h1 (two_zpow_pos e))
    exact (zpow_lt_zpow_iff_right₀ (by norm_num)).1 this
  obtain ⟨d, hd⟩ : ∃ d : ℕ, e = (m + 1 - p) + d := ⟨(e - (m + 1 - p)).toNat, by omega⟩
  refine ⟨k * 2 ^ d, ?_⟩
  rw [hd, zpow_add₀ (by norm_num), zpow_natCast]; push_cast; ring

section nearest
variable {p : ℕ} {x y z : ℝ}

theorem nearest_self (h : Nearest p x y) (hx : x ∈ F p) : y = x := by
  have := h.2 x hx
  rw [sub_self, abs_zero] at this
  have := abs_nonpos_iff.1 this
  linarith

theorem nearest_le (h : Nearest p x y) (hz : z ∈ F p) (hxz : x ≤ z) : y ≤ z := by
  by_contra hc
  push Not at hc
  have := h.2 z hz
  rw [abs_of_nonneg (by linarith), abs_of_nonneg (by linarith)] at this
  linarith

theorem le_nearest (h : Nearest p x y) (hz : z ∈ F p) (hxz : z ≤ x) : z ≤ y := by
  by_contra hc
  push Not at hc
  have := h.2 z hz
  rw [abs_of_nonpos (by linarith), abs_of_nonpos (by linarith)] at this
  linarith

/-- error of at most half a unit in the last place -/
theorem abs_error (hp : 1 ≤ p) (h : Nearest p x y) {m : ℤ} (hm : |x| ≤ (2 : ℝ) ^ (m + 1)) :
    |y - x| ≤ (2 : ℝ) ^ (m - p) := by
  obtain ⟨u, hu⟩ : ∃ u : ℝ, u = 2 ^ (m + 1 - p) := ⟨_, rfl⟩
  have hu0 : 0 < u := hu ▸ two_zpow_pos _
  have hhalf : (2 : ℝ) ^ (m - p) = u / 2 := by
    rw [hu, show m + 1 - (p : ℤ) = (m - p) + 1 by ring, zpow_add_one₀ (by norm_num)]; ring
  have hbig : (2 : ℝ) ^ (m + 1) = 2 ^ p * u := by
    rw [hu, ← zpow_natCast, ← zpow_add₀ (by norm_num)]; congr 1; ring
  have hx := abs_le.1 hm
  rw [hbig] at hx
  have hq1 : x / u ≤ 2 ^ p := (div_le_iff₀ hu0).2 hx.2
  have hq0 : -(2 ^ p) ≤ x / u := by rw [le_div_iff₀ hu0]; linarith [hx.1]
  obtain ⟨k, hk⟩ : ∃ k : ℤ, k = ⌊x / u⌋ := ⟨_, rfl⟩
  have hk1 : (k : ℝ) * u ≤ x := by rw [← le_div_iff₀ hu0, hk]; exact Int.floor_le _
  have hk2 : x < ((k : ℝ) + 1) * u := by rw [← div_lt_iff₀ hu0, hk]; exact Int.lt_floor_add_one _
  have hkl : -(2 ^ p) ≤ k := by rw [hk, Int.le_floor]; push_cast; exact hq0
  have hku : k ≤ 2 ^ p := by rw [hk]; have := Int.floor_le (x / u); exact_mod_cast le_trans this hq1
  have m1 : (k : ℝ) * u ∈ F p := by rw [hu]; exact mem_of_le hp _ (abs_le.2 ⟨hkl, hku⟩)
  rw [hhalf]
  have e1 := h.2 _ m1
  rw [abs_of_nonpos (by linarith : (k : ℝ) * u - x ≤ 0)] at e1
  rcases lt_or_eq_of_le hku with hlt | heq
  · have m2 : ((k : ℝ) + 1) * u ∈ F p := by
      have := mem_of_le hp (k := k + 1) (m + 1 - p) (abs_le.2 ⟨by omega, by omega⟩)
      rw [← hu] at this; push_cast at this; exact this
    have e2 := h.2 _ m2
    rw [abs_of_nonneg (by linarith : 0 ≤ ((k : ℝ) + 1) * u - x)] at e2
    nlinarith
  · have : x = k * u := by
      refine le_antisymm ?_ hk1
      rw [heq]; push_cast; exact hx.2
    rw [← this] at e1
    linarith

/-- relative error of at most `2^-p` -/
theorem rel_error (hp : 1 ≤ p) (h : Nearest p x y) : |y - x| ≤ |x| * (2 : ℝ) ^ (-(p : ℤ)) := by
  by_cases hx : x = 0
  · subst hx
    have := nearest_self h (zero_mem p)
    simp [this]
  · obtain ⟨m, h1, h2⟩ := exists_mem_Ico_zpow (abs_pos.2 hx) (by norm_num : (1 : ℝ) < 2)
    refine le_trans (abs_error hp h h2.le) ?_
    rw [sub_eq_add_neg, zpow_add₀ (by norm_num)]
    exact mul_le_mul_of_nonneg_right h1 (two_zpow_pos _).le

/-- rounding preserves order -/
theorem nearest_mono {x' y' : ℝ} (h : Nearest p x y) (h' : Nearest p x' y') (hx : x < x') : y ≤ y' := by
  by_contra hc
  push Not at hc
  have a := h.2 _ h'.1
  have b := h'.2 _ h.1
  rcases le_total y x with h1 | h1
  · linarith [le_nearest h' h.1 (by linarith : y ≤ x')]
  · rcases le_total x' y' with h2 | h2
    · linarith [nearest_le h h'.1 (by linarith : x ≤ y')]
    · rw [abs_of_nonneg (by linarith)] at a
      rw [abs_of_nonpos (by linarith)] at b
      rcases le_total y x' with h3 | h3
      · rw [abs_of_nonpos (by linarith)] at b
        linarith
      · rw [abs_of_nonneg (by linarith)] at b
        rcases le_total y' x with h4 | h4
        · rw [abs_of_nonpos (by linarith)] at a; linarith
        · rw [abs_of_nonneg (by linarith)] at a; linarith

theorem nearest_neg (h : Nearest p x y) : Nearest p (-x) (-y) := by
  refine ⟨neg_mem h.1, fun z hz => ?_⟩
  have := h.2 _ (neg_mem hz)
  rw [show -y - -x = -(y - x) by ring, abs_neg]
  rwa [show -z - x = -(z - -x) by ring, abs_neg] at this

end nearest

/-- two distinct representable positive numbers differ by at least `2^-p` of the larger -/
theorem gap {p : ℕ} {x X : ℝ} (hx : x ∈ F p) (hX : X ∈ F p) (h0 : 0 < X) (h : x < X) :
    X * (2 : ℝ) ^ (-(p : ℤ)) ≤ X - x := by
  obtain ⟨m, h1, h2⟩ := exists_mem_Ioc_zpow h0 (by norm_num : (1 : ℝ) < 2)
  obtain ⟨u, hu⟩ : ∃ u : ℝ, u = 2 ^ (m + 1 - (p : ℤ)) := ⟨_, rfl⟩
  have hu0 : 0 < u := hu ▸ two_zpow_pos _
  have hle : X * (2 : ℝ) ^ (-(p : ℤ)) ≤ u := by
    rw [hu, sub_eq_add_neg, zpow_add₀ (by norm_num : (2 : ℝ) ≠ 0) (m + 1)]
    exact mul_le_mul_of_nonneg_right h2 (two_zpow_pos _).le
  obtain ⟨j, hj⟩ := multiple hX (m := m) (by rw [abs_of_pos h0]; exact h1.le)
  have hm : (2 : ℝ) ^ m ∈ F p := by
    obtain ⟨k, e, hk, he⟩ := hX
    have : 1 ≤ p := by
      by_contra hc
      have : p = 0 := by omega
      subst this
      have : k = 0 := by simpa using hk
      rw [this] at he; simp at he; linarith
    exact zpow_mem this m
  obtain ⟨i, hi⟩ := multiple hm (m := m) (by rw [abs_of_pos (two_zpow_pos m)])
  -- any representable number in `[2^m, X)`
  have key : ∀ z ∈ F p, (2 : ℝ) ^ m ≤ z → z < X → u ≤ X - z := by
    intro z hz hz1 hz2
    obtain ⟨l, hl⟩ := multiple hz (m := m) (le_trans hz1 (le_abs_self z))
    rw [← hu] at hl hj
    have : l < j := by
      rw [hl, hj] at hz2
      have := lt_of_mul_lt_mul_right hz2 hu0.le
      exact_mod_cast this
    have : (l : ℝ) + 1 ≤ j := by exact_mod_cast this
    rw [hl, hj]
    nlinarith
  rcases le_total ((2 : ℝ) ^ m) x with hc | hc
  · exact le_trans hle (key x hx hc h)
  · have := key _ hm le_rfl h1
    linarith

theorem exists_nearest_pos {p : ℕ} (hp : 1 ≤ p) {x : ℝ} (hx : 0 < x) : ∃ y, Nearest p x y := by
  obtain ⟨m, h1, h2⟩ := exists_mem_Ico_zpow hx (by norm_num : (1 : ℝ) < 2)
  obtain ⟨u, hu⟩ : ∃ u : ℝ, u = 2 ^ (m + 1 - (p : ℤ)) := ⟨_, rfl⟩
  have hu0 : 0 < u := hu ▸ two_zpow_pos _
  have hbig : (2 : ℝ) ^ (m + 1) = 2 ^ p * u := by
    rw [hu, ← zpow_natCast, ← zpow_add₀ (by norm_num)]; congr 1; ring
  have hbig' : (2 : ℝ) ^ m = 2 ^ (p - 1) * u := by
    rw [hu, ← zpow_natCast, ← zpow_add₀ (by norm_num)]; congr 1; push_cast [hp]; ring
  obtain ⟨k, hk⟩ : ∃ k : ℤ, k = ⌊x / u⌋ := ⟨_, rfl⟩
  have hk1 : (k : ℝ) * u ≤ x := by rw [← le_div_iff₀ hu0, hk]; exact Int.floor_le _
  have hk2 : x < ((k : ℝ) + 1) * u := by rw [← div_lt_iff₀ hu0, hk]; exact Int.lt_floor_add_one _
  have hkl : (2 : ℤ) ^ (p - 1) ≤ k := by
    rw [hk, Int.le_floor, le_div_iff₀ hu0]; push_cast; linarith
  have hk0 : 0 < k := lt_of_lt_of_le (by positivity) hkl
  have hku : k < 2 ^ p := by
    have : (k : ℝ) < 2 ^ p := by
      by_contra hc
      push Not at hc
      have := mul_le_mul_of_nonneg_right hc hu0.le
      linarith
    exact_mod_cast this
  have m1 : (k : ℝ) * u ∈ F p := by rw [hu]; exact mem_of_le hp _ (abs_le.2 ⟨by linarith, hku.le⟩)
  have m2 : ((k : ℝ) + 1) * u ∈ F p := by
    have := mem_of_le hp (k := k + 1) (m + 1 - p) (abs_le.2 ⟨by linarith, by omega⟩)
    rw [← hu] at this; push_cast at this; exact this
  -- nothing representable lies strictly between the two
  have key : ∀ z ∈ F p, z ≤ k * u ∨ (k + 1) * u ≤ z := by
    intro z hz
    by_cases hz' : (2 : ℝ) ^ m ≤ |z|
    · obtain ⟨l, hl⟩ := multiple hz hz'
      rw [← hu] at hl
      rcases le_or_gt l k with h | h
      · left; rw [hl]; exact mul_le_mul_of_nonneg_right (by exact_mod_cast h) hu0.le
      · right; rw [hl]; refine mul_le_mul_of_nonneg_right ?_ hu0.le
        exact_mod_cast h
    · push Not at hz'
      have hz'' := abs_lt.1 hz'
      rw [hbig'] at hz''
      left
      have : (2 : ℝ) ^ (p - 1) ≤ k := by exact_mod_cast hkl
      nlinarith [mul_le_mul_of_nonneg_right this hu0.le]
  rcases le_total (x - k * u) ((k + 1) * u - x) with h | h
  · refine ⟨k * u, m1, fun z hz => ?_⟩
    rw [abs_of_nonpos (by linarith)]
    rcases key z hz with h' | h'
    · rw [abs_of_nonpos (by linarith)]; linarith
    · rw [abs_of_nonneg (by linarith)]; linarith
  · refine ⟨(k + 1) * u, m2, fun z hz => ?_⟩
    rw [abs_of_nonneg (by linarith)]
    rcases key z hz with h' | h'
    · rw [abs_of_nonpos (by linarith)]; linarith
    · rw [abs_of_nonneg (by linarith)]; linarith

/-- every real number has a nearest representable one: roundings to nearest exist -/
theorem exists_nearest {p : ℕ} (hp : 1 ≤ p) (x : ℝ) : ∃ y, Nearest p x y := by
  rcases lt_trichotomy x 0 with h | h | h
  · obtain ⟨y, hy⟩ := exists_nearest_pos hp (neg_pos.2 h)
    exact ⟨-y, by simpa using nearest_neg hy⟩
  · exact ⟨0, zero_mem p, fun z _ => by simp [h]⟩
  · exact exists_nearest_pos hp h

theorem exists_rounds {p : ℕ} (hp : 1 ≤ p) : ∃ fl, Rounds p fl :=
  ⟨fun x => (exists_nearest hp x).choose, fun x => (exists_nearest hp x).choose_spec⟩

end LCP.Float
