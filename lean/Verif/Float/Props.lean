import Verif.Float.Lemmas

/-!
# Where droplets are, in floating point (C114, C115)

C114: the cell a droplet is put in.  C115: the periodic side walls.
-/
namespace LCP.Float
open LCP.Grid LCP.Bcnd

/-! ### C114: cell index -/

/-- **C114** (single precision) the cell index computed from a position stored as `float` is exactly the index of the cell the stored
position is in, for every cell size, every position and every cell up to the 2^29-th. -/
theorem cell_single_exact {fq : ℝ → ℝ} (hq : Rounds 53 fq) {x d : ℝ} (hx : x ∈ F 24) (hd : d ∈ F 24) (hd0 : 0 < d)
    {i : ℕ} (hi : i < 2 ^ 29) (h0 : i * d ≤ x) (h1 : x < (i + 1) * d) : cellIdx fq d x = some i := by
  have hx0 : 0 ≤ x := le_trans (by positivity) h0
  have h1' : x < ((i + 1 : ℕ) : ℝ) * d := by push_cast; exact h1
  have hg := quotient_gap hx hd hd0 hx0 h1'
  have hup := quotient_below (q := 53) (p := 24) (by norm_num) (by norm_num) (Nat.succ_pos i) (by norm_num; omega)
    (div_nonneg hx0 hd0.le) hg (hq (x / d))
  have hlo : (i : ℝ) ≤ fq (x / d) :=
    le_nearest (hq _) (nat_mem (by norm_num) (le_trans hi.le (by norm_num))) ((le_div_iff₀ hd0).2 h0)
  have hi' : (i : ℝ) < 2 ^ 29 := by exact_mod_cast hi
  unfold cellIdx
  rw [toSizeT_nonneg (le_trans (Nat.cast_nonneg i) hlo) (lt_of_lt_of_le hup (by push_cast; linarith))]
  rw [Nat.floor_eq_iff (le_trans (Nat.cast_nonneg i) hlo) |>.2 ⟨hlo, by push_cast at hup; exact hup⟩]

/-- **C114** (single precision) the same index as in real arithmetic -/
theorem cell_single {fq : ℝ → ℝ} (hq : Rounds 53 fq) {x d : ℝ} (hx : x ∈ F 24) (hd : d ∈ F 24) (hd0 : 0 < d) (hx0 : 0 ≤ x)
    (hx1 : x < 2 ^ 29 * d) : cellIdx fq d x = divideByConstantAndCast d x := by
  have hq0 := div_nonneg hx0 hd0.le
  have hlt : x / d < 2 ^ 29 := (div_lt_iff₀ hd0).2 hx1
  rw [cell_single_exact hq hx hd hd0 (i := ⌊x / d⌋₊) ?_ ?_ ?_]
  · unfold divideByConstantAndCast
    rw [toSizeT_nonneg hq0 (by linarith)]
  · rw [Nat.floor_lt hq0]; push_cast; linarith
  · exact (le_div_iff₀ hd0).1 (Nat.floor_le hq0)
  · exact (div_lt_iff₀ hd0).1 (Nat.lt_floor_add_one _)

/-- **C114** (single precision) with an upper limit of the domain no higher than the rounded `n * d`, every stored position below the
limit is in one of the `n` cells. -/
theorem cell_single_in_range {fl fq : ℝ → ℝ} (hp : Rounds 24 fl) (hq : Rounds 53 fq) {x d x1 : ℝ} {n : ℕ} (hn : n ≤ 2 ^ 29)
    (hx : x ∈ F 24) (hd : d ∈ F 24) (hd0 : 0 < d) (hx0 : 0 ≤ x) (hx1 : x < x1) (hdom : x1 ≤ fl (n * d)) :
    ∃ i, cellIdx fq d x = some i ∧ i < n ∧ i * d ≤ x ∧ x < (i + 1) * d := by
  have hlt := lt_of_lt_round hp hx (lt_of_lt_of_le hx1 hdom)
  have hq0 := div_nonneg hx0 hd0.le
  have hfl : ⌊x / d⌋₊ < n := (Nat.floor_lt hq0).2 ((div_lt_iff₀ hd0).2 hlt)
  have e1 := (le_div_iff₀ hd0).1 (Nat.floor_le hq0)
  have e2 := (div_lt_iff₀ hd0).1 (Nat.lt_floor_add_one (x / d))
  exact ⟨_, cell_single_exact hq hx hd hd0 (by omega) e1 e2, hfl, e1, e2⟩

/-- **C114** (single precision) the index stays in range even if the compiler multiplies by the reciprocal of the cell size -/
theorem cell_single_recip_in_range {fl fq : ℝ → ℝ} (hp : Rounds 24 fl) (hq : Rounds 53 fq) {x d x1 : ℝ} {n : ℕ} (hn : n ≤ 2 ^ 26)
    (hx : x ∈ F 24) (hd : d ∈ F 24) (hd0 : 0 < d) (hx0 : 0 ≤ x) (hx1 : x < x1) (hdom : x1 ≤ fl (n * d)) :
    ∃ i, cellIdxRecip fq d x = some i ∧ i < n := by
  have hlt := lt_of_lt_round hp hx (lt_of_lt_of_le hx1 hdom)
  have hg := quotient_gap hx hd hd0 hx0 hlt
  have hq0 := div_nonneg hx0 hd0.le
  have hn' : (n : ℝ) ≤ 2 ^ 26 := by exact_mod_cast hn
  have h1 := rel_error (by norm_num) (hq (1 / d))
  have hi0 : 0 < fq (1 / d) := nearest_pos (by norm_num) (hq _) (by positivity)
  have h2 := rel_error (by norm_num) (hq (x * fq (1 / d)))
  have hr0 : 0 ≤ fq (x * fq (1 / d)) := le_nearest (hq _) (zero_mem _) (mul_nonneg hx0 hi0.le)
  rw [abs_of_pos (by positivity : 0 < 1 / d)] at h1
  rw [abs_of_nonneg (mul_nonneg hx0 hi0.le)] at h2
  have h1' := (abs_le.1 h1).2
  have h2' := (abs_le.1 h2).2
  obtain ⟨t, ht⟩ : ∃ t : ℝ, t = x / d := ⟨_, rfl⟩
  rw [← ht] at hg hq0
  have hxr : x * fq (1 / d) ≤ t * (1 + (2 : ℝ) ^ (-((53 : ℕ) : ℤ))) := by
    have := mul_le_mul_of_nonneg_left h1' hx0
    rw [ht]
    have e : x * (1 / d * (2 : ℝ) ^ (-((53 : ℕ) : ℤ))) = x / d * (2 : ℝ) ^ (-((53 : ℕ) : ℤ)) := by ring
    have e' : x * (fq (1 / d) - 1 / d) = x * fq (1 / d) - x / d := by ring
    rw [e, e'] at this
    linarith
  have e53 : (2 : ℝ) ^ (-((53 : ℕ) : ℤ)) = 1 / 2 ^ 53 := by rw [zpow_neg, zpow_natCast]; norm_num
  have e24 : (2 : ℝ) ^ (-((24 : ℕ) : ℤ)) = 1 / 2 ^ 24 := by rw [zpow_neg, zpow_natCast]; norm_num
  rw [e53] at hxr h2'
  rw [e24] at hg
  have htn : t ≤ 2 ^ 26 := by
    have : (0 : ℝ) < 1 / 2 ^ 24 := by norm_num
    linarith
  have hres : fq (x * fq (1 / d)) < n := by
    norm_num at hxr h2' hg htn ⊢
    nlinarith
  refine ⟨⌊fq (x * fq (1 / d))⌋₊, ?_, (Nat.floor_lt hr0).2 hres⟩
  unfold cellIdxRecip
  exact toSizeT_nonneg hr0 (lt_of_lt_of_le hres (le_trans hn' (by norm_num)))

/-- **C114** (any precision `p`, division in the same precision) if the size of the grid is exactly representable, every
stored position inside the grid is put in one of its cells. -/
theorem cell_in_range_partial {p : ℕ} {fl : ℝ → ℝ} (hp : Rounds p fl) (hp1 : 1 ≤ p) (hp2 : p ≤ 63) {x d : ℝ} {n : ℕ} (hn : n ≤ 2 ^ p)
    (hX : (n : ℝ) * d ∈ F p) (hx : x ∈ F p) (hd0 : 0 < d) (hx0 : 0 ≤ x) (hx1 : x < n * d) :
    ∃ i, cellIdx fl d x = some i ∧ i < n := by
  have hn0 : 0 < n := by
    by_contra hc
    have : n = 0 := by omega
    subst this; simp at hx1; linarith
  have hn' : (0 : ℝ) < n := by exact_mod_cast hn0
  have hg := gap hx hX (by positivity) hx1
  have hq0 := div_nonneg hx0 hd0.le
  have hgap : (n : ℝ) * (2 : ℝ) ^ (-(p : ℤ)) ≤ n - x / d := by
    rw [le_sub_iff_add_le, ← le_sub_iff_add_le', div_le_iff₀ hd0]
    nlinarith
  obtain ⟨m, h1, h2⟩ := exists_mem_Ioc_zpow hn' (by norm_num : (1 : ℝ) < 2)
  have hpp := two_zpow_pos (-(p : ℤ))
  have hxn : x / d < n := (div_lt_iff₀ hd0).2 hx1
  have he := abs_error hp1 (hp (x / d)) (m := m) (by rw [abs_of_nonneg hq0]; linarith)
  have hlt : (2 : ℝ) ^ (m - (p : ℤ)) < n * (2 : ℝ) ^ (-(p : ℤ)) := by
    rw [sub_eq_add_neg, zpow_add₀ (by norm_num)]
    exact mul_lt_mul_of_pos_right h1 hpp
  have hres : fl (x / d) < n := by have := (abs_le.1 he).2; linarith
  have hr0 : 0 ≤ fl (x / d) := le_nearest (hp _) (zero_mem _) hq0
  refine ⟨⌊fl (x / d)⌋₊, ?_, (Nat.floor_lt hr0).2 hres⟩
  unfold cellIdx
  refine toSizeT_nonneg hr0 (lt_of_lt_of_le hres ?_)
  have : (n : ℝ) ≤ 2 ^ p := by exact_mod_cast hn
  exact le_trans this (pow_le_pow_right₀ (by norm_num) (by omega))

/-- the grid of the counterexample below: 17 cells of 3.2, in double precision -/
noncomputable def d32 : ℝ := 7205759403792794 * (2 : ℝ) ^ (-51 : ℤ)
/-- a position in its last cell -/
noncomputable def x544 : ℝ := 7656119366529843 * (2 : ℝ) ^ (-47 : ℤ)

/-- **C114 fails in double precision**: 17 cells of size 3.2, `x1 = nx * dx` as computed in double precision.  The position
54.4 is below `x1` (and inside the last cell), yet the computed index is 17: there is no such cell.  Whatever way ties are broken. -/
theorem cell_double_out_of_range {fl : ℝ → ℝ} (hp : Rounds 53 fl) :
    d32 ∈ F 53 ∧ x544 ∈ F 53 ∧ 0 < d32 ∧ 0 ≤ x544 ∧ x544 < fl (17 * d32) ∧ x544 < 17 * d32 ∧ 16 * d32 ≤ x544 ∧
      cellIdx fl d32 x544 = some 17 := by
  have hx1 : fl (17 * d32) = (7656119366529844 : ℤ) * (2 : ℝ) ^ (-47 : ℤ) := by
    refine round_eval hp _ _ (by norm_num) (by norm_num) (by norm_num) ?_
    unfold d32; rw [abs_lt]; norm_num
  have hq : fl (x544 / d32) = (4785074604081152 : ℤ) * (2 : ℝ) ^ (-48 : ℤ) := by
    refine round_eval hp _ _ (by norm_num) (by norm_num) (by norm_num) ?_
    unfold d32 x544; rw [abs_lt]; norm_num
  refine ⟨⟨7205759403792794, -51, by norm_num, by unfold d32; norm_num⟩, ⟨7656119366529843, -47, by norm_num, by unfold x544; norm_num⟩,
    by unfold d32; positivity, by unfold x544; positivity, ?_, by unfold d32 x544; norm_num, by unfold d32 x544; norm_num, ?_⟩
  · rw [hx1]; unfold x544; norm_num
  · unfold cellIdx
    rw [hq, toSizeT_nonneg (by positivity) (by norm_num)]
    norm_num

example : cellIdx (exists_rounds (p := 53) (by norm_num)).choose (1 / 4) 1 = some 4 :=
  cell_single_exact (exists_rounds (by norm_num)).choose_spec ⟨1, 0, by norm_num, by norm_num⟩ ⟨1, -2, by norm_num, by norm_num⟩
    (by norm_num) (by norm_num) (by norm_num) (by norm_num)

/-! ### C115: periodic walls -/

theorem sum_nonneg {p : ℕ} {fl : ℝ → ℝ} (hp : Rounds p fl) (hp6 : 6 ≤ p) {a b x : ℝ} (hab : a < b)
    (hx : a - 9 * (b - a) ≤ x) : 0 ≤ fl (fl (x - a) + fl (10 * fl (b - a))) := by
  refine le_nearest (hp _) (zero_mem _) ?_
  have hp1 : 1 ≤ p := by omega
  have h1 := rel_error hp1 (hp (b - a))
  have hL0 : 0 < fl (b - a) := nearest_pos hp1 (hp _) (by linarith)
  have h2 := rel_error hp1 (hp (10 * fl (b - a)))
  have h3 := rel_error hp1 (hp (x - a))
  obtain ⟨ε, hε⟩ : ∃ ε : ℝ, ε = 2 ^ (-(p : ℤ)) := ⟨_, rfl⟩
  have hε0 : 0 < ε := hε ▸ two_zpow_pos _
  have hε1 : ε ≤ 1 / 64 := by
    rw [hε]
    have : (2 : ℝ) ^ (-(p : ℤ)) ≤ 2 ^ (-6 : ℤ) := zpow_le_zpow_right₀ (by norm_num) (by omega)
    refine le_trans this (by norm_num)
  rw [← hε] at h1 h2 h3
  rw [abs_of_pos (by linarith : 0 < b - a)] at h1
  rw [abs_of_pos (by linarith : 0 < 10 * fl (b - a))] at h2
  have h1' := (abs_le.1 h1).1
  have h2' := (abs_le.1 h2).1
  rcases le_total 0 (x - a) with h | h
  · have : 0 ≤ fl (x - a) := le_nearest (hp _) (zero_mem _) h
    nlinarith
  · rw [abs_of_nonpos h] at h3
    have h3' := (abs_le.1 h3).1
    nlinarith

/-- **C115** a droplet that crossed a periodic wall (and travelled less than nine domain lengths beyond it) is put back between the
walls, in any precision; the upper end is included because of rounding. -/
theorem periodic_closed_partial {p : ℕ} {fl : ℝ → ℝ} (hp : Rounds p fl) (hp6 : 6 ≤ p) {a b x : ℝ} (ha : a ∈ F p) (hb : b ∈ F p)
    (hab : a < b) (hx : a - 9 * (b - a) ≤ x) : a ≤ periodicFl fl a b x ∧ periodicFl fl a b x ≤ b := by
  have hp1 : 1 ≤ p := by omega
  have hL0 : 0 < fl (b - a) := nearest_pos hp1 (hp _) (by linarith)
  have hs := sum_nonneg hp hp6 hab hx
  obtain ⟨y, hy⟩ : ∃ y, y = fmod (fl (fl (x - a) + fl (10 * fl (b - a)))) (fl (b - a)) := ⟨_, rfl⟩
  have hyF : y ∈ F p := hy ▸ fmod_mem (hp _).1 (hp _).1 hL0
  obtain ⟨y0, y1⟩ := fmod_nonneg hs hL0
  rw [← hy] at y0 y1
  have : y < b - a := lt_of_lt_round hp hyF y1
  unfold periodicFl
  rw [← hy]
  exact ⟨le_nearest (hp _) ha (by linarith), nearest_le (hp _) hb (by linarith)⟩

/-- **C115** with the lower wall at zero (the default) the upper end is never reached -/
theorem periodic_from_zero {p : ℕ} {fl : ℝ → ℝ} (hp : Rounds p fl) (hp6 : 6 ≤ p) {b x : ℝ} (hb : b ∈ F p)
    (hb0 : 0 < b) (hx : -(9 * b) ≤ x) : 0 ≤ periodicFl fl 0 b x ∧ periodicFl fl 0 b x < b := by
  have hp1 : 1 ≤ p := by omega
  have hL : fl (b - 0) = b := by rw [sub_zero]; exact nearest_self (hp _) hb
  have hs := sum_nonneg hp hp6 hb0 (x := x) (by linarith)
  have hL0 : 0 < fl (b - 0) := by rw [hL]; exact hb0
  obtain ⟨y, hy⟩ : ∃ y, y = fmod (fl (fl (x - 0) + fl (10 * fl (b - 0)))) (fl (b - 0)) := ⟨_, rfl⟩
  have hyF : y ∈ F p := hy ▸ fmod_mem (hp _).1 (hp _).1 hL0
  obtain ⟨y0, y1⟩ := fmod_nonneg hs hL0
  rw [← hy] at y0 y1
  unfold periodicFl
  rw [← hy, zero_add, nearest_self (hp _) hyF]
  rw [hL] at y1
  exact ⟨y0, y1⟩

/-- **C115** (single precision, lower wall at zero) after the wall has been applied the droplet is in one of the cells -/
theorem periodic_then_cell {fl fq : ℝ → ℝ} (hp : Rounds 24 fl) (hq : Rounds 53 fq) {b d x : ℝ} {n : ℕ} (hn : n ≤ 2 ^ 29) (hb : b ∈ F 24)
    (hd : d ∈ F 24) (hd0 : 0 < d) (hb0 : 0 < b) (hdom : b ≤ fl (n * d)) (hx : -(9 * b) ≤ x) :
    ∃ i, cellIdx fq d (periodicFl fl 0 b x) = some i ∧ i < n := by
  obtain ⟨h0, h1⟩ := periodic_from_zero hp (by norm_num) hb hb0 hx
  obtain ⟨i, hi, hin, _⟩ := cell_single_in_range hp hq hn (hp _).1 hd hd0 h0 h1 hdom
  exact ⟨i, hi, hin⟩

/-- **C115** the wall moves the droplet by a whole number of domain lengths, up to an error of 80 rounding units of the
upper end of the domain -/
theorem periodic_error {p : ℕ} {fl : ℝ → ℝ} (hp : Rounds p fl) (hp6 : 10 ≤ p) {a b x : ℝ}
    (ha0 : 0 ≤ a) (hab : a < b) (hx : |x - a| ≤ 9 * (b - a)) :
    ∃ k : ℤ, |periodicFl fl a b x - (x + k * (b - a))| ≤ 80 * b * (2 : ℝ) ^ (-(p : ℤ)) := by
  have hp1 : 1 ≤ p := by omega
  have hx' := abs_le.1 hx
  have hL0 : 0 < fl (b - a) := nearest_pos hp1 (hp _) (by linarith)
  have hs := sum_nonneg hp (by omega) hab (x := x) (by linarith)
  have e1 := rel_error hp1 (hp (b - a))
  have e2 := rel_error hp1 (hp (10 * fl (b - a)))
  have e3 := rel_error hp1 (hp (x - a))
  have e4 := rel_error hp1 (hp (fl (x - a) + fl (10 * fl (b - a))))
  have e5 := rel_error hp1 (hp (a + fmod (fl (fl (x - a) + fl (10 * fl (b - a)))) (fl (b - a))))
  obtain ⟨y0, y1⟩ := fmod_nonneg hs hL0
  unfold periodicFl
  obtain ⟨n, hn, hn0⟩ : ∃ n : ℤ, fmod (fl (fl (x - a) + fl (10 * fl (b - a)))) (fl (b - a)) =
      fl (fl (x - a) + fl (10 * fl (b - a))) - n * fl (b - a) ∧ 0 ≤ n := by
    refine ⟨_, rfl, ?_⟩
    unfold trunc
    rw [if_pos (div_nonneg hs hL0.le)]
    exact Int.floor_nonneg.2 (div_nonneg hs hL0.le)
  obtain ⟨y, hy⟩ : ∃ y, y = fmod (fl (fl (x - a) + fl (10 * fl (b - a)))) (fl (b - a)) := ⟨_, rfl⟩
  rw [← hy] at hn y0 y1 e5 ⊢
  obtain ⟨s, hs'⟩ : ∃ s, s = fl (fl (x - a) + fl (10 * fl (b - a))) := ⟨_, rfl⟩
  rw [← hs'] at hn hs e4
  obtain ⟨c, hc⟩ : ∃ c, c = fl (10 * fl (b - a)) := ⟨_, rfl⟩
  rw [← hc] at e2 e4
  obtain ⟨L, hL⟩ : ∃ L, L = fl (b - a) := ⟨_, rfl⟩
  rw [← hL] at e1 e2 hn y1 hL0
  obtain ⟨w, hw⟩ : ∃ w, w = fl (x - a) := ⟨_, rfl⟩
  rw [← hw] at e3 e4
  obtain ⟨r, hr⟩ : ∃ r, r = fl (a + y) := ⟨_, rfl⟩
  rw [← hr] at e5 ⊢
  obtain ⟨ε, hε⟩ : ∃ ε : ℝ, ε = 2 ^ (-(p : ℤ)) := ⟨_, rfl⟩
  have hε0 : 0 < ε := hε ▸ two_zpow_pos _
  have hε1 : ε ≤ 1 / 1024 := by
    rw [hε]
    have : (2 : ℝ) ^ (-(p : ℤ)) ≤ 2 ^ (-10 : ℤ) := zpow_le_zpow_right₀ (by norm_num) (by omega)
    refine le_trans this (by norm_num)
  rw [← hε] at e1 e2 e3 e4 e5 ⊢
  clear hr hw hL hc hs' hy hε hp hp6 hp1
  obtain ⟨D, hD⟩ : ∃ D, D = b - a := ⟨_, rfl⟩
  rw [← hD] at e1 hx hx' ⊢
  have hD0 : 0 < D := by linarith
  rw [abs_of_pos hD0] at e1
  rw [abs_of_pos (by linarith : 0 < 10 * L)] at e2
  rw [abs_of_nonneg (by linarith : 0 ≤ a + y)] at e5
  have e1' := abs_le.1 e1
  have e2' := abs_le.1 e2
  have e5' := abs_le.1 e5
  have hDe : D * ε ≤ D / 1024 := by nlinarith
  have hLD : L ≤ 1025 / 1024 * D := by linarith
  have hLD' : 1023 / 1024 * D ≤ L := by linarith
  have hLe : L * ε ≤ 1025 / 1024 * D * ε := mul_le_mul_of_nonneg_right hLD hε0.le
  have e3' : |w - (x - a)| ≤ 9 * D * ε := le_trans e3 (mul_le_mul_of_nonneg_right hx hε0.le)
  have e3'' := abs_le.1 e3'
  have hwc : |w + c| ≤ 20 * D := by
    rw [abs_le]; constructor <;> linarith
  have e4' : |s - (w + c)| ≤ 20 * D * ε := le_trans e4 (mul_le_mul_of_nonneg_right hwc hε0.le)
  have e4'' := abs_le.1 e4'
  have hsD : s ≤ 20.1 * D := by
    have := (abs_le.1 hwc).2
    linarith
  have hn' : (n : ℝ) ≤ 21 := by
    have : (n : ℝ) * L ≤ s := by linarith
    by_contra hc
    push Not at hc
    nlinarith
  have hn0' : (0 : ℝ) ≤ n := by exact_mod_cast hn0
  -- number of lengths times the error of the length
  have hnL : |(n : ℝ) * (L - D)| ≤ 21 * D * ε := by
    rw [abs_mul, abs_of_nonneg hn0']
    calc (n : ℝ) * |L - D| ≤ n * (D * ε) := mul_le_mul_of_nonneg_left e1 hn0'
      _ ≤ 21 * (D * ε) := mul_le_mul_of_nonneg_right hn' (by positivity)
      _ = 21 * D * ε := by ring
  have hnL' := abs_le.1 hnL
  have hay : a + y ≤ b + D * ε := by linarith
  have haye : (a + y) * ε ≤ 1.1 * b * ε := by
    refine mul_le_mul_of_nonneg_right ?_ hε0.le
    have : D ≤ b := by linarith
    linarith
  have hDb : D * ε ≤ b * ε := mul_le_mul_of_nonneg_right (by linarith) hε0.le
  refine ⟨10 - n, ?_⟩
  push_cast
  rw [abs_le]
  constructor <;> nlinarith

/-! #### What rounding breaks -/

/-- the grid of the counterexample: 16 cells of size `dW`, lower wall in the middle of the first cell, upper wall at the end -/
noncomputable def dW : ℝ := 8613303 * (2 : ℝ) ^ (-18 : ℤ)
noncomputable def aW : ℝ := 8613303 * (2 : ℝ) ^ (-19 : ℤ)
noncomputable def bW : ℝ := 8613303 * (2 : ℝ) ^ (-14 : ℤ)
/-- a position inside the last cell -/
noncomputable def xW : ℝ := 8613298 * (2 : ℝ) ^ (-14 : ℤ)

/-- **C115 fails with the lower wall above zero**: in single precision a droplet strictly between the walls is put by the periodic wall
exactly at the upper wall, and then in the cell with index 16 of a grid of 16 cells. -/
theorem periodic_hits_upper_wall {fl fq : ℝ → ℝ} (hp : Rounds 24 fl) (hq : Rounds 53 fq) :
    aW = dW / 2 ∧ bW = 16 * dW ∧ dW ∈ F 24 ∧ aW ∈ F 24 ∧ bW ∈ F 24 ∧ xW ∈ F 24 ∧ aW < xW ∧ xW < bW ∧
      periodicFl fl aW bW xW = bW ∧ cellIdx fq dW (periodicFl fl aW bW xW) = some 16 := by
  have h1 : fl (xW - aW) = (16688265 : ℤ) * (2 : ℝ) ^ (-15 : ℤ) := by
    refine round_eval hp _ _ (by norm_num) (by norm_num) (by norm_num) ?_
    unfold xW aW; rw [abs_lt]; norm_num
  have h2 : fl (bW - aW) = (16688275 : ℤ) * (2 : ℝ) ^ (-15 : ℤ) := by
    refine round_eval hp _ _ (by norm_num) (by norm_num) (by norm_num) ?_
    unfold bW aW; rw [abs_lt]; norm_num
  have h3 : fl (10 * fl (bW - aW)) = (10430172 : ℤ) * (2 : ℝ) ^ (-11 : ℤ) := by
    refine round_eval hp _ _ (by norm_num) (by norm_num) (by norm_num) ?_
    rw [h2, abs_lt]; norm_num
  have h4 : fl (fl (xW - aW) + fl (10 * fl (bW - aW))) = (11473189 : ℤ) * (2 : ℝ) ^ (-11 : ℤ) := by
    refine round_eval hp _ _ (by norm_num) (by norm_num) (by norm_num) ?_
    rw [h1, h3, abs_lt]; norm_num
  have h5 : fmod (fl (fl (xW - aW) + fl (10 * fl (bW - aW)))) (fl (bW - aW)) = 16688274 * (2 : ℝ) ^ (-15 : ℤ) := by
    rw [h4, h2]
    unfold fmod trunc
    rw [if_pos (by positivity)]
    have : ⌊(((11473189 : ℤ) : ℝ) * 2 ^ (-11 : ℤ)) / (((16688275 : ℤ) : ℝ) * 2 ^ (-15 : ℤ))⌋ = 10 := by
      rw [Int.floor_eq_iff]; norm_num
    rw [this]; norm_num
  have h6 : periodicFl fl aW bW xW = bW := by
    unfold periodicFl
    rw [h5, round_eval hp 8613303 (-14) (by norm_num) (by norm_num) (by norm_num)]
    · unfold bW; norm_num
    · unfold aW; rw [abs_lt]; norm_num
  refine ⟨by unfold aW dW; norm_num, by unfold bW dW; norm_num, ⟨8613303, -18, by norm_num, by unfold dW; norm_num⟩,
    ⟨8613303, -19, by norm_num, by unfold aW; norm_num⟩, ⟨8613303, -14, by norm_num, by unfold bW; norm_num⟩,
    ⟨8613298, -14, by norm_num, by unfold xW; norm_num⟩, by unfold aW xW; norm_num, by unfold xW bW; norm_num, h6, ?_⟩
  rw [h6]
  have : fq (bW / dW) = 16 := by
    rw [show bW / dW = (16 : ℕ) by unfold bW dW; norm_num]
    rw [nearest_self (hq _) (nat_mem (by norm_num) (by norm_num))]; norm_num
  unfold cellIdx
  rw [this, toSizeT_nonneg (by norm_num) (by norm_num)]
  norm_num

/-- **C115 fails for droplets that crossed no wall**: in single precision, with walls at 0 and 1, a droplet at `1 - 2^-24`, inside the
domain, is put at 0 -/
theorem periodic_moves_interior {fl : ℝ → ℝ} (hp : Rounds 24 fl) :
    (1 - (2 : ℝ) ^ (-24 : ℤ)) ∈ F 24 ∧ (0 : ℝ) < 1 - (2 : ℝ) ^ (-24 : ℤ) ∧ 1 - (2 : ℝ) ^ (-24 : ℤ) < 1 ∧
      periodicFl fl 0 1 (1 - (2 : ℝ) ^ (-24 : ℤ)) = 0 := by
  have hm : (1 - (2 : ℝ) ^ (-24 : ℤ)) ∈ F 24 := ⟨16777215, -24, by norm_num, by norm_num⟩
  have h1 : fl (1 - 0) = 1 := by
    rw [sub_zero]; exact nearest_self (hp _) (by simpa using nat_mem (p := 24) (n := 1) (by norm_num) (by norm_num))
  have h10 : fl (10 * 1) = 10 := by
    rw [mul_one]; exact nearest_self (hp _) (by simpa using nat_mem (p := 24) (n := 10) (by norm_num) (by norm_num))
  have hx : fl (1 - (2 : ℝ) ^ (-24 : ℤ) - 0) = 1 - (2 : ℝ) ^ (-24 : ℤ) := by
    rw [sub_zero]; exact nearest_self (hp _) hm
  have h11 : fl (1 - (2 : ℝ) ^ (-24 : ℤ) + 10) = 11 := by
    rw [round_eval hp 11534336 (-20) (by norm_num) (by norm_num) (by norm_num)]
    · norm_num
    · rw [abs_lt]; norm_num
  refine ⟨hm, by norm_num, by norm_num, ?_⟩
  unfold periodicFl
  rw [h1, h10, hx, h11]
  have : fmod 11 1 = 0 := by
    unfold fmod trunc
    rw [if_pos (by norm_num)]
    have : ⌊(11 : ℝ) / 1⌋ = 11 := by rw [Int.floor_eq_iff]; norm_num
    rw [this]; norm_num
  rw [this, add_zero]
  exact nearest_self (hp _) (zero_mem _)

example : ∃ fl : ℝ → ℝ, Rounds 24 fl ∧ 0 ≤ periodicFl fl 0 1 (-1 / 2) ∧ periodicFl fl 0 1 (-1 / 2) < 1 := by
  obtain ⟨fl, h⟩ := exists_rounds (p := 24) (by norm_num)
  exact ⟨fl, h, periodic_from_zero h (by norm_num) (by simpa using nat_mem (p := 24) (n := 1) (by norm_num) (by norm_num))
    (by norm_num) (by norm_num)⟩

end LCP.Float
