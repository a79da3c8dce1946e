import Verif.Float.Model
import Verif.Float.Lemmas
import Verif.Float.Props

/-!
# C118: a droplet handed to the neighbouring subdomain, in floating-point arithmetic

`land` below is what the receiver stores: the coordinate shifted by the sender and cleaned by the receiver.
-/
namespace LCP.Float
open LCP.Grid

/-- a number closer to the representable `z > 2^m` than half the spacing there is rounded to `z` -/
theorem round_near {p : ℕ} (hp : 1 ≤ p) {fl : ℝ → ℝ} (h : Rounds p fl) {z w : ℝ} {m : ℤ} (hz : z ∈ F p) (hm : (2 : ℝ) ^ m < z)
    (hw : |w - z| < (2 : ℝ) ^ (m - p)) : fl w = z := by
  obtain ⟨u, hu⟩ : ∃ u : ℝ, u = 2 ^ (m + 1 - (p : ℤ)) := ⟨_, rfl⟩
  have hu0 : 0 < u := hu ▸ two_zpow_pos _
  have hhalf : (2 : ℝ) ^ (m - p) = u / 2 := by
    rw [hu, show m + 1 - (p : ℤ) = (m - p) + 1 by ring, zpow_add_one₀ (by norm_num)]; ring
  have hbig : (2 : ℝ) ^ m = ((2 ^ (p - 1) : ℤ) : ℝ) * u := by
    push_cast
    rw [hu, ← zpow_natCast, ← zpow_add₀ (by norm_num)]; congr 1; omega
  have h0 := two_zpow_pos m
  obtain ⟨j, hj⟩ := multiple hz (m := m) (by rw [abs_of_pos (by linarith)]; exact hm.le)
  rw [← hu] at hj
  have hjlt : (2 ^ (p - 1) : ℤ) < j := by
    have : ((2 ^ (p - 1) : ℤ) : ℝ) * u < j * u := by rw [← hbig, ← hj]; exact hm
    exact_mod_cast lt_of_mul_lt_mul_right this hu0.le
  have hjle : (((2 ^ (p - 1) : ℤ) + 1 : ℤ) : ℝ) * u ≤ j * u :=
    mul_le_mul_of_nonneg_right (by exact_mod_cast hjlt) hu0.le
  rw [hhalf] at hw
  have hy := (h w).2 z hz
  rw [abs_sub_comm z w] at hy
  have hy2 := lt_of_le_of_lt hy hw
  have a := abs_lt.1 hw
  have b := abs_lt.1 hy2
  have hyge : (2 : ℝ) ^ m ≤ fl w := by
    rw [hbig]; push_cast at hjle ⊢; rw [← hj] at hjle; linarith
  obtain ⟨i, hi⟩ := multiple (h w).1 (m := m) (by rw [abs_of_pos (by linarith)]; exact hyge)
  rw [← hu] at hi
  have e1 : ((i - j : ℤ) : ℝ) * u < 1 * u := by push_cast; rw [sub_mul, ← hi, ← hj]; linarith
  have e2 : (-1 : ℝ) * u < ((i - j : ℤ) : ℝ) * u := by push_cast; rw [sub_mul, ← hi, ← hj]; linarith
  have f1 : i - j < 1 := by exact_mod_cast lt_of_mul_lt_mul_right e1 hu0.le
  have f2 : -1 < i - j := by exact_mod_cast lt_of_mul_lt_mul_right e2 hu0.le
  have : i = j := by omega
  rw [hi, hj, this]

/-- the tolerance is half a millimetre, up to rounding -/
theorem tol_bounds {p : ℕ} {fl : ℝ → ℝ} (h : Rounds p fl) (hp : 24 ≤ p) :
    4999 / 10 ^ 7 < bcondTol fl ∧ bcondTol fl < 5001 / 10 ^ 7 := by
  have h1 := rel_error (by omega) (h (5 / 10 ^ 4))
  have h2 : (2 : ℝ) ^ (-(p : ℤ)) ≤ 2 ^ (-(24 : ℤ)) := zpow_le_zpow_right₀ (by norm_num) (by omega)
  have h3 : |(5 / 10 ^ 4 : ℝ)| * 2 ^ (-(p : ℤ)) ≤ 5 / 10 ^ 4 * 2 ^ (-(24 : ℤ)) := by
    rw [abs_of_pos (by norm_num)]; exact mul_le_mul_of_nonneg_left h2 (by norm_num)
  have h4 := abs_le.1 (le_trans h1 h3)
  unfold bcondTol
  norm_num at h4 ⊢
  constructor <;> linarith [h4.1, h4.2]

/-- what the receiver stores -/
noncomputable def land (fl : ℝ → ℝ) (lcl rmt lft rgt x : ℝ) : ℝ := awayFl fl (bcondTol fl) lft rgt (remoteFl fl lcl rmt x)

theorem away_mem {p : ℕ} {fl : ℝ → ℝ} (h : Rounds p fl) {t a b x : ℝ} (hx : x ∈ F p) : awayFl fl t a b x ∈ F p := by
  unfold awayFl; split_ifs
  exacts [(h _).1, (h _).1, hx]

/-- **C118** whatever the coordinates of the two subdomains are: if they do not exceed `2^(p-12)` (4096 m in single precision), a droplet
that in exact arithmetic belongs to the receiver is stored by it between its limits, less than a millimetre from its exact place -/
theorem land_in_domain {p : ℕ} {fl : ℝ → ℝ} (h : Rounds p fl) (hp : 24 ≤ p) {lcl rmt lft rgt x : ℝ}
    (hr : |rmt + x| ≤ (2 : ℝ) ^ (p - 12)) (hlft : |lft| ≤ (2 : ℝ) ^ (p - 12)) (hrgt : |rgt| ≤ (2 : ℝ) ^ (p - 12))
    (hwide : 1 / 10 ^ 3 ≤ rgt - lft) (he0 : lft ≤ rmt + x - lcl) (he1 : rmt + x - lcl < rgt) :
    lft ≤ land fl lcl rmt lft rgt x ∧ land fl lcl rmt lft rgt x < rgt ∧ |land fl lcl rmt lft rgt x - (rmt + x - lcl)| < 1 / 10 ^ 3 := by
  have hp1 : 1 ≤ p := by omega
  obtain ⟨t1, t2⟩ := tol_bounds h hp
  obtain ⟨H, hH⟩ : ∃ H : ℝ, H = 2 ^ (p - 12) := ⟨_, rfl⟩
  rw [← hH] at hr hlft hrgt
  have hH1 : (1 : ℝ) ≤ H := by rw [hH]; exact one_le_pow₀ (by norm_num)
  have hbig : (2 : ℝ) ^ ((p : ℤ) - 13 + 1) = H := by
    rw [hH, ← zpow_natCast, Nat.cast_sub (by omega)]; congr 1; push_cast; ring
  have hbig2 : (2 : ℝ) ^ ((p : ℤ) - 12 + 1) = 2 * H := by
    rw [← hbig, show (p : ℤ) - 12 + 1 = ((p : ℤ) - 13 + 1) + 1 by ring, zpow_add_one₀ (by norm_num)]; ring
  have hsm : (2 : ℝ) ^ ((p : ℤ) - 13 - p) = 1 / 8192 := by
    rw [show (p : ℤ) - 13 - p = -13 by ring]; norm_num
  have hsm2 : (2 : ℝ) ^ ((p : ℤ) - 12 - p) = 1 / 4096 := by
    rw [show (p : ℤ) - 12 - p = -12 by ring]; norm_num
  have e1 := abs_error hp1 (h (rmt + x)) (m := (p : ℤ) - 13) (by rw [hbig]; exact hr)
  rw [hsm] at e1
  obtain ⟨s, hs⟩ : ∃ s, s = fl (rmt + x) := ⟨_, rfl⟩
  rw [← hs] at e1
  have a1 := abs_le.1 e1
  have a4 := abs_le.1 hlft
  have a5 := abs_le.1 hrgt
  have e2 := abs_error hp1 (h (s - lcl)) (m := (p : ℤ) - 12) (by rw [hbig2, abs_le]; norm_num at a1 ⊢; constructor <;> linarith)
  rw [hsm2] at e2
  obtain ⟨y, hy⟩ : ∃ y, y = fl (s - lcl) := ⟨_, rfl⟩
  rw [← hy] at e2
  have a6 := abs_le.1 e2
  have hrem : remoteFl fl lcl rmt x = y := by unfold remoteFl; rw [← hs, ← hy]
  unfold land
  rw [hrem]
  generalize bcondTol fl = tol at *
  unfold awayFl
  split_ifs with c1 c2
  · have e3 := abs_error hp1 (h (y - tol)) (m := (p : ℤ) - 13) (by rw [hbig, abs_le]; norm_num at *; constructor <;> linarith)
    rw [hsm] at e3
    have a7 := abs_le.1 e3
    generalize fl (y - tol) = r at *
    rw [abs_lt]
    clear hs hy hH hbig hbig2 hsm hsm2
    norm_num at *
    refine ⟨?_, ?_, ?_, ?_⟩ <;> linarith
  · push Not at c1
    have e3 := abs_error hp1 (h (y + tol)) (m := (p : ℤ) - 13) (by rw [hbig, abs_le]; norm_num at *; constructor <;> linarith)
    rw [hsm] at e3
    have a7 := abs_le.1 e3
    generalize fl (y + tol) = r at *
    rw [abs_lt]
    clear hs hy hH hbig hbig2 hsm hsm2
    norm_num at *
    refine ⟨?_, ?_, ?_, ?_⟩ <;> linarith
  · push Not at c1 c2
    refine ⟨c2, c1, ?_⟩
    rw [abs_lt]
    clear hs hy hH hbig hbig2 hsm hsm2
    norm_num at *
    refine ⟨?_, ?_⟩ <;> linarith

/-- subtracting the tolerance from an upper limit of at most `2^(p-10)` (16384 m in single precision) gives less than that limit -/
theorem below_limit {p : ℕ} {fl : ℝ → ℝ} (h : Rounds p fl) (hp : 24 ≤ p) {X : ℝ} (hX : X ∈ F p) (h0 : 0 < X)
    (h1 : X ≤ (2 : ℝ) ^ (p - 10)) : fl (X - bcondTol fl) < X := by
  obtain ⟨t1, t2⟩ := tol_bounds h hp
  obtain ⟨m, hm1, hm2⟩ := exists_mem_Ioc_zpow h0 (by norm_num : (1 : ℝ) < 2)
  obtain ⟨u, hu⟩ : ∃ u : ℝ, u = 2 ^ (m + 1 - (p : ℤ)) := ⟨_, rfl⟩
  have hu0 : 0 < u := hu ▸ two_zpow_pos _
  obtain ⟨j, hj⟩ := multiple hX (m := m) (by rw [abs_of_pos h0]; exact hm1.le)
  rw [← hu] at hj
  have hm : m < (p : ℤ) - 10 := by
    have : (2 : ℝ) ^ m < 2 ^ ((p : ℤ) - 10) := by
      have e : (2 : ℝ) ^ ((p : ℤ) - 10) = 2 ^ (p - 10) := by
        rw [← zpow_natCast, Nat.cast_sub (by omega)]; push_cast; rfl
      rw [e]; linarith
    exact (zpow_lt_zpow_iff_right₀ (by norm_num)).1 this
  have hu1 : u ≤ 1 / 1024 := by
    rw [hu]
    calc (2 : ℝ) ^ (m + 1 - (p : ℤ)) ≤ 2 ^ (-10 : ℤ) := zpow_le_zpow_right₀ (by norm_num) (by omega)
      _ = 1 / 1024 := by norm_num
  have hbig : (2 : ℝ) ^ (m + 1) = ((2 ^ p : ℤ) : ℝ) * u := by
    push_cast
    rw [hu, ← zpow_natCast, ← zpow_add₀ (by norm_num)]; congr 1; ring
  have hjp : (0 : ℝ) < j := by
    have : (0 : ℝ) * u < j * u := by rw [zero_mul, ← hj]; exact h0
    exact lt_of_mul_lt_mul_right this hu0.le
  have hjle : j ≤ 2 ^ p := by
    have : (j : ℝ) * u ≤ ((2 ^ p : ℤ) : ℝ) * u := by rw [← hbig, ← hj]; exact hm2
    exact_mod_cast le_of_mul_le_mul_right this hu0
  have hmem : X - u ∈ F p := by
    have := mem_of_le (p := p) (by omega) (k := j - 1) (m + 1 - (p : ℤ)) (by
      have : 0 < j := by exact_mod_cast hjp
      rw [abs_of_nonneg (by omega)]; omega)
    rw [← hu] at this
    push_cast at this
    rwa [sub_mul, one_mul, ← hj] at this
  have hn := (h (X - bcondTol fl)).2 _ hmem
  by_contra hc
  push Not at hc
  have e : X - u - (X - bcondTol fl) = bcondTol fl - u := by ring
  rw [e, abs_of_nonneg (a := fl (X - bcondTol fl) - (X - bcondTol fl)) (by linarith)] at hn
  generalize fl (X - bcondTol fl) = r at *
  generalize bcondTol fl = tol at *
  rcases abs_cases (tol - u) with ⟨e1, _⟩ | ⟨e1, _⟩
  · linarith
  · norm_num at *; linarith

/-- **C118** between the neighbours inside the domain (or if the domain starts at 0) the shift is a single rounded operation: the droplet
arrives between the limits of the receiver if these do not exceed `2^(p-10)` (16384 m in single precision) -/
theorem land_one_rounding {p : ℕ} {fl : ℝ → ℝ} (h : Rounds p fl) (hp : 24 ≤ p) {lft rgt e : ℝ} (hlF : lft ∈ F p) (hrF : rgt ∈ F p)
    (hl0 : 0 ≤ lft) (hr1 : rgt ≤ (2 : ℝ) ^ (p - 10)) (hwide : 1 / 10 ^ 3 ≤ rgt - lft) (he0 : lft ≤ e) (he1 : e < rgt) :
    lft ≤ awayFl fl (bcondTol fl) lft rgt (fl e) ∧ awayFl fl (bcondTol fl) lft rgt (fl e) < rgt ∧
      |awayFl fl (bcondTol fl) lft rgt (fl e) - e| < 3 / 10 ^ 3 := by
  have hp1 : 1 ≤ p := by omega
  obtain ⟨t1, t2⟩ := tol_bounds h hp
  have hr0 : 0 < rgt := by norm_num at hwide; linarith
  have hbig : (2 : ℝ) ^ ((p : ℤ) - 11 + 1) = 2 ^ (p - 10) := by
    rw [← zpow_natCast, Nat.cast_sub (by omega)]; congr 1; push_cast; ring
  have hsm : (2 : ℝ) ^ ((p : ℤ) - 11 - p) = 1 / 2048 := by
    rw [show (p : ℤ) - 11 - p = -11 by ring]; norm_num
  have y0 := le_nearest (h e) hlF he0
  have y1 := nearest_le (h e) hrF he1.le
  have e1 := abs_error hp1 (h e) (m := (p : ℤ) - 11) (by rw [hbig, abs_le]; constructor <;> linarith)
  rw [hsm] at e1
  have a1 := abs_le.1 e1
  by_cases hc : rgt ≤ fl e
  · have hy : fl e = rgt := le_antisymm y1 hc
    have hb := below_limit h hp hrF hr0 hr1
    have hlo : lft ≤ fl (rgt - bcondTol fl) := le_nearest (h _) hlF (by norm_num at *; linarith)
    have e2 := abs_error hp1 (h (rgt - bcondTol fl)) (m := (p : ℤ) - 11) (by
      rw [hbig, abs_le]; norm_num at hwide t1 t2; constructor <;> linarith)
    rw [hsm] at e2
    have a2 := abs_le.1 e2
    rw [hy] at a1 ⊢
    unfold awayFl
    rw [if_pos (le_refl _)]
    refine ⟨hlo, hb, ?_⟩
    generalize fl (rgt - bcondTol fl) = r at *
    generalize bcondTol fl = tol at *
    clear hbig hsm
    rw [abs_lt]; norm_num at *; constructor <;> linarith
  · have : awayFl fl (bcondTol fl) lft rgt (fl e) = fl e := by
      unfold awayFl; rw [if_neg hc, if_neg (by linarith)]
    rw [this]
    push Not at hc
    refine ⟨y0, hc, ?_⟩
    rw [abs_lt]; norm_num at *; constructor <;> linarith

/-- **C118** moving left into a subdomain that ends at `rgt`, from one that starts at 0 -/
theorem land_left {p : ℕ} {fl : ℝ → ℝ} (h : Rounds p fl) (hp : 24 ≤ p) {lft rgt x : ℝ} (hlF : lft ∈ F p) (hrF : rgt ∈ F p)
    (hl0 : 0 ≤ lft) (hr1 : rgt ≤ (2 : ℝ) ^ (p - 10)) (hwide : 1 / 10 ^ 3 ≤ rgt - lft) (hx0 : lft ≤ rgt + x) (hx1 : x < 0) :
    lft ≤ land fl 0 rgt lft rgt x ∧ land fl 0 rgt lft rgt x < rgt ∧ |land fl 0 rgt lft rgt x - (rgt + x)| < 3 / 10 ^ 3 := by
  have : remoteFl fl 0 rgt x = fl (rgt + x) := by
    unfold remoteFl; rw [sub_zero]; exact nearest_self (h _) (h _).1
  unfold land; rw [this]
  exact land_one_rounding h hp hlF hrF hl0 hr1 hwide hx0 (by linarith)

/-- **C118** moving right out of a subdomain that ends at `lcl`, into one that starts at 0 -/
theorem land_right {p : ℕ} {fl : ℝ → ℝ} (h : Rounds p fl) (hp : 24 ≤ p) {lcl rgt x : ℝ} (hxF : x ∈ F p) (hrF : rgt ∈ F p)
    (hr1 : rgt ≤ (2 : ℝ) ^ (p - 10)) (hwide : 1 / 10 ^ 3 ≤ rgt) (hx0 : lcl ≤ x) (hx1 : x < lcl + rgt) :
    0 ≤ land fl lcl 0 0 rgt x ∧ land fl lcl 0 0 rgt x < rgt ∧ |land fl lcl 0 0 rgt x - (x - lcl)| < 3 / 10 ^ 3 := by
  have : remoteFl fl lcl 0 x = fl (x - lcl) := by
    unfold remoteFl; rw [zero_add, nearest_self (h x) hxF]
  unfold land; rw [this]
  exact land_one_rounding h hp (zero_mem p) hrF le_rfl hr1 (by rwa [sub_zero]) (by linarith) (by linarith)

/-- **C118** in single precision a droplet that moved left by less than the receiver's size gets a cell of the receiver -/
theorem land_left_cell {fl fq : ℝ → ℝ} (h : Rounds 24 fl) (hq : Rounds 53 fq) {lft rgt x d : ℝ} {n : ℕ} (hn : n ≤ 2 ^ 29)
    (hlF : lft ∈ F 24) (hrF : rgt ∈ F 24) (hd : d ∈ F 24) (hd0 : 0 < d) (hdom : rgt ≤ fl (n * d)) (hl0 : 0 ≤ lft) (hr1 : rgt ≤ 16384)
    (hwide : 1 / 10 ^ 3 ≤ rgt - lft) (hx0 : lft ≤ rgt + x) (hx1 : x < 0) :
    ∃ i, cellIdx fq d (land fl 0 rgt lft rgt x) = some i ∧ i < n := by
  obtain ⟨a, b, _⟩ := land_left h le_rfl hlF hrF hl0 (by norm_num; exact hr1) hwide hx0 hx1
  have hm : land fl 0 rgt lft rgt x ∈ F 24 := away_mem h (h _).1
  obtain ⟨i, hi, hin, _⟩ := cell_single_in_range h hq hn hm hd hd0 (by linarith) b hdom
  exact ⟨i, hi, hin⟩

/-- **C118 is false for longer subdomains**: in single precision, whenever the receiver ends above 16384 m, a droplet that crossed the wall by
a micrometre is stored on the receiver's upper limit, outside the receiver, and is given the index after its last column -/
theorem land_outside {fl fq : ℝ → ℝ} (h : Rounds 24 fl) (hq : Rounds 53 fq) {lft rgt d : ℝ} {n : ℕ} (hn : n ≤ 2 ^ 53) (hd0 : 0 < d)
    (hdom : rgt = n * d) (hrF : rgt ∈ F 24) (hr : 16384 < rgt) :
    land fl 0 rgt lft rgt (-(1 / 10 ^ 6)) = rgt ∧ cellIdx fq d (land fl 0 rgt lft rgt (-(1 / 10 ^ 6))) = some n := by
  obtain ⟨t1, t2⟩ := tol_bounds h le_rfl
  have hm : (2 : ℝ) ^ (14 : ℤ) < rgt := by norm_num; exact hr
  have e1 : fl (rgt + -(1 / 10 ^ 6)) = rgt := round_near (by norm_num) h hrF hm (by
    rw [show rgt + -(1 / 10 ^ 6) - rgt = -(1 / 10 ^ 6 : ℝ) by ring, abs_neg, abs_of_pos (by norm_num)]; norm_num)
  have e2 : fl (rgt - bcondTol fl) = rgt := round_near (by norm_num) h hrF hm (by
    rw [show rgt - bcondTol fl - rgt = -bcondTol fl by ring, abs_neg, abs_of_pos (by norm_num at t1; linarith)]
    norm_num at t2 ⊢; linarith)
  have hl : land fl 0 rgt lft rgt (-(1 / 10 ^ 6)) = rgt := by
    unfold land remoteFl
    rw [e1, sub_zero, nearest_self (h rgt) hrF]
    unfold awayFl; rw [if_pos (le_refl _), e2]
  refine ⟨hl, ?_⟩
  rw [hl]
  unfold cellIdx
  have : rgt / d = n := by rw [hdom]; field_simp
  rw [this, nearest_self (hq n) (nat_mem (by norm_num) hn)]
  have hn' : (n : ℝ) ≤ 2 ^ 53 := by exact_mod_cast hn
  rw [toSizeT_nonneg (by positivity) (by norm_num at hn' ⊢; linarith), Nat.floor_natCast]

/-- such a subdomain exists: 200 columns of 100 m -/
example {fl fq : ℝ → ℝ} (h : Rounds 24 fl) (hq : Rounds 53 fq) :
    land fl 0 20000 0 20000 (-(1 / 10 ^ 6)) = 20000 ∧ cellIdx fq 100 (land fl 0 20000 0 20000 (-(1 / 10 ^ 6))) = some 200 :=
  land_outside h hq (n := 200) (by norm_num) (by norm_num) (by norm_num)
    (by have := nat_mem (p := 24) (n := 20000) (by norm_num) (by norm_num); simpa using this) (by norm_num)

/-- and 32 columns of 100 m satisfy the premises of `land_left_cell` -/
example {fl fq : ℝ → ℝ} (h : Rounds 24 fl) (hq : Rounds 53 fq) :
    ∃ i, cellIdx fq 100 (land fl 0 3200 0 3200 (-(1 / 10 ^ 6))) = some i ∧ i < 32 := by
  have h1 : (3200 : ℝ) ∈ F 24 := by have := nat_mem (p := 24) (n := 3200) (by norm_num) (by norm_num); simpa using this
  have h2 : (100 : ℝ) ∈ F 24 := by have := nat_mem (p := 24) (n := 100) (by norm_num) (by norm_num); simpa using this
  refine land_left_cell h hq (n := 32) (by norm_num) (zero_mem _) h1 h2 (by norm_num) ?_ le_rfl (by norm_num) (by norm_num)
    (by norm_num) (by norm_num)
  rw [show ((32 : ℕ) : ℝ) * 100 = 3200 by norm_num, nearest_self (h _) h1]

/-- `land_in_domain` applies to the driver's first subdomain, which starts at half a cell: receiver 50..1600, sender ending at 1600 -/
example {fl : ℝ → ℝ} (h : Rounds 24 fl) : 50 ≤ land fl 1600 50 50 1600 1601 ∧ land fl 1600 50 50 1600 1601 < 1600 := by
  obtain ⟨a, b, _⟩ := land_in_domain h le_rfl (lcl := 1600) (rmt := 50) (lft := 50) (rgt := 1600) (x := 1601)
    (by norm_num [abs_le]) (by norm_num [abs_le]) (by norm_num [abs_le]) (by norm_num) (by norm_num) (by norm_num)
  exact ⟨a, b⟩

end LCP.Float
