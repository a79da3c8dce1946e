import Verif.Float.Model
import Verif.Float.Lemmas

/-!
# C120: the number of substeps for a changed time step, in floating-point arithmetic
-/
namespace LCP.Float

theorem eps_pos (p : ℕ) : (0 : ℝ) < 2 ^ (-(p : ℤ)) := two_zpow_pos _

theorem eps_mul (p : ℕ) : (2 : ℝ) ^ p * 2 ^ (-(p : ℤ)) = 1 := by
  rw [zpow_neg, zpow_natCast]; exact mul_inv_cancel₀ (by positivity)

/-- product and quotient, relative to the exact value -/
theorem ratio_bounds {p : ℕ} {fl : ℝ → ℝ} (h : Rounds p fl) (hp : 1 ≤ p) {n : ℕ} {dt0 dt : ℝ} (h0 : 0 < dt0) (h1 : 0 < dt) :
    n * dt / dt0 * (1 - 2 ^ (-(p : ℤ))) ^ 2 ≤ fl (fl (n * dt) / dt0) ∧
      fl (fl (n * dt) / dt0) ≤ n * dt / dt0 * (1 + 2 ^ (-(p : ℤ))) ^ 2 := by
  obtain ⟨e, he⟩ : ∃ e : ℝ, e = 2 ^ (-(p : ℤ)) := ⟨_, rfl⟩
  have he0 : 0 < e := he ▸ eps_pos p
  have he1 : e ≤ 1 := he ▸ zpow_le_one_of_nonpos₀ (by norm_num) (by omega)
  have a := abs_le.1 (rel_error hp (h (n * dt)))
  have b := abs_le.1 (rel_error hp (h (fl (n * dt) / dt0)))
  rw [← he] at a b ⊢
  have hnd : 0 ≤ (n : ℝ) * dt := by positivity
  rw [abs_of_nonneg hnd] at a
  have hf0 : 0 ≤ fl (n * dt) := le_nearest (h _) (zero_mem _) hnd
  rw [abs_of_nonneg (by positivity)] at b
  have a1 : n * dt * (1 - e) ≤ fl (n * dt) := by linarith [a.1]
  have a2 : fl (n * dt) ≤ n * dt * (1 + e) := by linarith [a.2]
  have c1 : n * dt / dt0 * (1 - e) ≤ fl (n * dt) / dt0 := by
    rw [div_mul_eq_mul_div]; exact div_le_div_of_nonneg_right a1 h0.le
  have c2 : fl (n * dt) / dt0 ≤ n * dt / dt0 * (1 + e) := by
    rw [div_mul_eq_mul_div]; exact div_le_div_of_nonneg_right a2 h0.le
  have d1 := mul_le_mul_of_nonneg_right c1 (by linarith : 0 ≤ 1 - e)
  have d2 := mul_le_mul_of_nonneg_right c2 (by linarith : 0 ≤ 1 + e)
  constructor
  · nlinarith [b.1]
  · nlinarith [b.2]

/-- **C120** there is at least one substep -/
theorem sstp_pos {p : ℕ} {fl : ℝ → ℝ} (h : Rounds p fl) (hp : 1 ≤ p) {n : ℕ} (hn : 0 < n) {dt0 dt : ℝ} (h0 : 0 < dt0) :
    0 < sstpFl fl n dt0 dt := by
  unfold sstpFl
  split_ifs with c
  · have hn' : (0 : ℝ) < n := by exact_mod_cast hn
    have h1 : 0 < fl (n * dt) := nearest_pos hp (h _) (mul_pos hn' c.1)
    exact Nat.ceil_pos.2 (nearest_pos hp (h _) (div_pos h1 h0))
  · exact hn

/-- **C120** a substep is not longer than the default substep, up to three rounding errors -/
theorem sstp_short {p : ℕ} {fl : ℝ → ℝ} (h : Rounds p fl) (hp : 3 ≤ p) {n : ℕ} (hn : 1 < n) {dt0 dt : ℝ} (h0 : 0 < dt0)
    (h1 : 0 < dt) : dt / sstpFl fl n dt0 dt ≤ dt0 / n * (1 + 3 * 2 ^ (-(p : ℤ))) := by
  have hpos := sstp_pos h (by omega) (show 0 < n by omega) (dt := dt) h0
  obtain ⟨r, _⟩ := ratio_bounds h (by omega) (n := n) h0 h1
  have hs : (fl (fl (n * dt) / dt0)) ≤ (sstpFl fl n dt0 dt : ℝ) := by
    unfold sstpFl; rw [if_pos ⟨h1, hn⟩]; exact Nat.le_ceil _
  have hs' : (0 : ℝ) < sstpFl fl n dt0 dt := by exact_mod_cast hpos
  obtain ⟨e, he⟩ : ∃ e : ℝ, e = 2 ^ (-(p : ℤ)) := ⟨_, rfl⟩
  have he0 : 0 < e := he ▸ eps_pos p
  have he1 : e ≤ 1 / 8 := by
    rw [he]
    calc (2 : ℝ) ^ (-(p : ℤ)) ≤ 2 ^ (-3 : ℤ) := zpow_le_zpow_right₀ (by norm_num) (by omega)
      _ = 1 / 8 := by norm_num
  rw [← he] at r ⊢
  have hn' : (0 : ℝ) < n := by exact_mod_cast (show 0 < n by omega)
  rw [div_le_iff₀ hs']
  have k : dt = dt0 / n * (n * dt / dt0) := by field_simp
  have hv : 0 < n * dt / dt0 := by positivity
  have e2 : 1 ≤ (1 + 3 * e) * (1 - e) ^ 2 := by nlinarith [mul_pos he0 he0, mul_pos (mul_pos he0 he0) he0]
  calc dt = dt0 / n * (n * dt / dt0) * 1 := by rw [mul_one]; exact k
    _ ≤ dt0 / n * (n * dt / dt0) * ((1 + 3 * e) * (1 - e) ^ 2) := mul_le_mul_of_nonneg_left e2 (by positivity)
    _ = dt0 / n * (1 + 3 * e) * (n * dt / dt0 * (1 - e) ^ 2) := by ring
    _ ≤ dt0 / n * (1 + 3 * e) * (sstpFl fl n dt0 dt) := mul_le_mul_of_nonneg_left (le_trans r hs) (by positivity)

/-- **C120** at most one substep more than in exact arithmetic (fewer than `2^(p-2)` substeps) -/
theorem sstp_at_most_one_more {p : ℕ} {fl : ℝ → ℝ} (h : Rounds p fl) (hp : 3 ≤ p) {n : ℕ} (hn : 1 < n) {dt0 dt : ℝ} (h0 : 0 < dt0)
    (h1 : 0 < dt) (hb : n * dt / dt0 ≤ 2 ^ (p - 2)) : sstpFl fl n dt0 dt ≤ ⌈n * dt / dt0⌉₊ + 1 := by
  obtain ⟨_, r⟩ := ratio_bounds h (by omega) (n := n) h0 h1
  unfold sstpFl
  rw [if_pos ⟨h1, hn⟩, Nat.ceil_le]
  push_cast
  obtain ⟨e, he⟩ : ∃ e : ℝ, e = 2 ^ (-(p : ℤ)) := ⟨_, rfl⟩
  have he0 : 0 < e := he ▸ eps_pos p
  have he1 : e ≤ 1 / 8 := by
    rw [he]
    calc (2 : ℝ) ^ (-(p : ℤ)) ≤ 2 ^ (-3 : ℤ) := zpow_le_zpow_right₀ (by norm_num) (by omega)
      _ = 1 / 8 := by norm_num
  rw [← he] at r
  have hk : (2 : ℝ) ^ (p - 2) * e = 1 / 4 := by
    have := eps_mul p
    rw [show p = (p - 2) + 2 by omega, pow_add] at this
    rw [show p - 2 + 2 = p by omega, ← he] at this
    linarith
  have hv : 0 < n * dt / dt0 := by
    have : (0 : ℝ) < n := by exact_mod_cast (show 0 < n by omega)
    positivity
  have hve : n * dt / dt0 * e ≤ 1 / 4 := by rw [← hk]; exact mul_le_mul_of_nonneg_right hb he0.le
  have hc := Nat.le_ceil ((n : ℝ) * dt / dt0)
  generalize (n : ℝ) * dt / dt0 = v at *
  have : v * (1 + e) ^ 2 ≤ v + 1 := by nlinarith
  linarith

/-- **C120** passing the default time step gives the default number of substeps or one more -/
theorem sstp_same_dt_partial {p : ℕ} {fl : ℝ → ℝ} (h : Rounds p fl) (hp : 3 ≤ p) {n : ℕ} (hn : 0 < n) (hb : n ≤ 2 ^ (p - 2)) {dt0 : ℝ}
    (h0 : 0 < dt0) : sstpFl fl n dt0 dt0 = n ∨ sstpFl fl n dt0 dt0 = n + 1 := by
  by_cases h1 : 1 < n
  · have ev : n * dt0 / dt0 = (n : ℝ) := by field_simp
    have hb' : (n : ℝ) ≤ 2 ^ (p - 2) := by exact_mod_cast hb
    have hup := sstp_at_most_one_more h hp h1 h0 h0 (by rw [ev]; exact hb')
    rw [ev, Nat.ceil_natCast] at hup
    have hlo : n ≤ sstpFl fl n dt0 dt0 := by
      unfold sstpFl
      rw [if_pos ⟨h0, h1⟩]
      have hlt : n - 1 < ⌈fl (fl (n * dt0) / dt0)⌉₊ := by
        rw [Nat.lt_ceil, Nat.cast_sub (by omega)]
        obtain ⟨r, _⟩ := ratio_bounds h (by omega) (n := n) h0 h0
        refine lt_of_lt_of_le ?_ r
        rw [ev]
        obtain ⟨e, he⟩ : ∃ e : ℝ, e = 2 ^ (-(p : ℤ)) := ⟨_, rfl⟩
        have he0 : 0 < e := he ▸ eps_pos p
        have hk : (2 : ℝ) ^ (p - 2) * e = 1 / 4 := by
          have := eps_mul p
          rw [show p = (p - 2) + 2 by omega, pow_add] at this
          rw [show p - 2 + 2 = p by omega, ← he] at this
          linarith
        have hve : (n : ℝ) * e ≤ 1 / 4 := by rw [← hk]; exact mul_le_mul_of_nonneg_right hb' he0.le
        rw [← he]; push_cast; nlinarith [mul_pos he0 he0, mul_nonneg (Nat.cast_nonneg (α := ℝ) n) (mul_pos he0 he0).le]
      omega
    omega
  · left; unfold sstpFl; rw [if_neg (by tauto)]

/-- **C120** exactly the default number if the product is representable (e.g. the number of substeps is a power of two) -/
theorem sstp_same_dt_exact_partial {p : ℕ} {fl : ℝ → ℝ} (h : Rounds p fl) (hp : 1 ≤ p) {n : ℕ} (hb : n ≤ 2 ^ p) {dt0 : ℝ}
    (h0 : 0 < dt0) (hr : n * dt0 ∈ F p) : sstpFl fl n dt0 dt0 = n := by
  unfold sstpFl
  split_ifs
  · have ev : n * dt0 / dt0 = (n : ℝ) := by field_simp
    rw [nearest_self (h _) hr, ev, nearest_self (h _) (nat_mem hp hb), Nat.ceil_natCast]
  · rfl

/-- **C120** -/
theorem sstp_same_dt_pow_two {p : ℕ} {fl : ℝ → ℝ} (h : Rounds p fl) (hp : 1 ≤ p) {k : ℕ} (hk : k ≤ p) {dt0 : ℝ}
    (h0 : 0 < dt0) (hF : dt0 ∈ F p) : sstpFl fl (2 ^ k) dt0 dt0 = 2 ^ k := by
  refine sstp_same_dt_exact_partial h hp (Nat.pow_le_pow_right (by norm_num) hk) h0 ?_
  have := scale_mem hF (k : ℤ)
  rw [zpow_natCast, mul_comm] at this
  exact_mod_cast this

/-- 0.3 in double precision -/
noncomputable def dt03 : ℝ := 5404319552844595 * (2 : ℝ) ^ (-54 : ℤ)

/-- **C120 is false in general**: in double precision, with a time step of 0.3 s and seven substeps, passing `opts.dt = 0.3` (the default
itself) gives eight substeps -/
theorem sstp_changed_by_default_dt {fl : ℝ → ℝ} (h : Rounds 53 fl) : dt03 ∈ F 53 ∧ 0 < dt03 ∧ sstpFl fl 7 dt03 dt03 = 8 := by
  have h0 : 0 < dt03 := by unfold dt03; norm_num
  have h1 : fl (7 * dt03) = (4728779608739021 : ℤ) * (2 : ℝ) ^ (-51 : ℤ) := by
    refine round_eval h _ _ (by norm_num) (by norm_num) (by norm_num) ?_
    unfold dt03; rw [abs_lt]; norm_num
  have h2 : fl (fl (7 * dt03) / dt03) = (7881299347898369 : ℤ) * (2 : ℝ) ^ (-50 : ℤ) := by
    refine round_eval h _ _ (by norm_num) (by norm_num) (by norm_num) ?_
    rw [h1]; unfold dt03; rw [abs_lt]; norm_num
  refine ⟨⟨5404319552844595, -54, by norm_num, by unfold dt03; norm_num⟩, h0, ?_⟩
  unfold sstpFl
  rw [if_pos ⟨h0, by norm_num⟩]
  push_cast
  rw [h2, Nat.ceil_eq_iff (by norm_num)]
  norm_num

/-- the premises of `sstp_short` hold for a step doubled from 1 s to 2 s with ten substeps -/
example {fl : ℝ → ℝ} (h : Rounds 24 fl) : (2 : ℝ) / sstpFl fl 10 1 2 ≤ 1 / 10 * (1 + 3 * 2 ^ (-(24 : ℤ))) := by
  simpa using sstp_short h (by norm_num) (n := 10) (by norm_num) (dt0 := 1) (dt := 2) (by norm_num) (by norm_num)

end LCP.Float
