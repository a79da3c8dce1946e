import Verif.Float.Guard

/-!
# Random numbers and initial positions in floating point (C117)
-/
namespace LCP.Float
open LCP.Grid LCP.Bcnd

/-! ### Random numbers on a GPU -/

/-- **C117** numbers in (0,1] that are not smaller than `2^-p` are turned into numbers in [0,1) -/
theorem curand_below_one_partial {p : ℕ} {fl : ℝ → ℝ} (hp : Rounds p fl) {v : ℝ} (h0 : (2 : ℝ) ^ (-(p : ℤ)) ≤ v) (h1 : v ≤ 1) :
    0 ≤ curandU01 fl v ∧ curandU01 fl v < 1 := by
  unfold curandU01
  refine ⟨le_nearest (hp _) (zero_mem _) (by linarith), ?_⟩
  have hm : 1 - (2 : ℝ) ^ (-(p : ℤ)) ∈ F p := by
    refine ⟨2 ^ p - 1, -(p : ℤ), ?_, ?_⟩
    · rw [abs_of_nonneg (by have : (1 : ℤ) ≤ 2 ^ p := one_le_pow₀ (by norm_num)
                            omega)]
      omega
    · push_cast
      rw [sub_mul, one_mul, zpow_neg, zpow_natCast, mul_inv_cancel₀ (by positivity)]
  have := nearest_le (hp (1 - v)) hm (by linarith)
  linarith [two_zpow_pos (-(p : ℤ))]

/-- **C117 fails**: numbers below `2^-(p+1)` (2^-25 in single precision; cuRAND returns such numbers) are turned into 1, although the range
is meant to be [0,1) -/
theorem curand_reaches_one {p : ℕ} {fl : ℝ → ℝ} (hp : Rounds p fl) (hp1 : 1 ≤ p) {v : ℝ} (h0 : 0 < v)
    (h1 : v < (2 : ℝ) ^ (-((p : ℤ) + 1))) : curandU01 fl v = 1 := by
  unfold curandU01
  have m1 : (1 : ℝ) ∈ F p := by simpa using nat_mem (p := p) (n := 1) hp1 (Nat.one_le_two_pow)
  have hle := nearest_le (hp (1 - v)) m1 (by linarith)
  by_contra hne
  have hlt := lt_of_le_of_ne hle hne
  have hg := gap (hp (1 - v)).1 m1 one_pos hlt
  have hn := (hp (1 - v)).2 1 m1
  rw [abs_of_nonneg (by linarith : 0 ≤ 1 - (1 - v))] at hn
  have hn' := (abs_le.1 hn).1
  have e : (2 : ℝ) ^ (-(p : ℤ)) = 2 * (2 : ℝ) ^ (-((p : ℤ) + 1)) := by
    rw [show -(p : ℤ) = 1 + -((p : ℤ) + 1) by ring, zpow_add₀ (by norm_num), zpow_one]
  linarith

/-! ### Positions of new droplets -/

/-- what is not far below a representable number is not rounded below it -/
theorem le_round_of_close {p : ℕ} {fl : ℝ → ℝ} (hp : Rounds p fl) {A w : ℝ} (hA : A ∈ F p) (hA0 : 0 ≤ A)
    (hw : A - A * (2 : ℝ) ^ (-(p : ℤ)) / 4 ≤ w) : A ≤ fl w := by
  rcases hA0.eq_or_lt with h | h
  · exact le_nearest (hp _) hA (by rw [← h] at hw ⊢; simpa using hw)
  · rcases le_total A w with h1 | h1
    · exact le_nearest (hp _) hA h1
    · by_contra hc
      push Not at hc
      have hg := gap (hp w).1 hA h hc
      have hn := (hp w).2 A hA
      rw [abs_of_nonneg (by linarith : 0 ≤ A - w)] at hn
      have hn' := (abs_le.1 hn).1
      have := mul_pos h (two_zpow_pos (-(p : ℤ)))
      linarith

/-- what is less than half a unit above a representable number is not rounded above it -/
theorem round_le_of_close {p : ℕ} {fl : ℝ → ℝ} (hp : Rounds p fl) {B w : ℝ} (hB : B ∈ F p) {m : ℤ} (hm : (2 : ℝ) ^ m ≤ B)
    (hw : w < B + (2 : ℝ) ^ (m - p)) : fl w ≤ B := by
  by_contra hc
  push Not at hc
  have hn := (hp w).2 B hB
  have hB0 : 0 < B := lt_of_lt_of_le (two_zpow_pos m) hm
  obtain ⟨u, hu⟩ : ∃ u : ℝ, u = 2 ^ (m + 1 - (p : ℤ)) := ⟨_, rfl⟩
  have hu0 : 0 < u := hu ▸ two_zpow_pos _
  have hhalf : (2 : ℝ) ^ (m - (p : ℤ)) = u / 2 := by
    rw [hu, show m + 1 - (p : ℤ) = (m - p) + 1 by ring, zpow_add_one₀ (by norm_num)]; ring
  obtain ⟨i, hi⟩ := multiple hB (le_trans hm (le_abs_self _))
  obtain ⟨j, hj⟩ := multiple (hp w).1 (le_trans (le_trans hm hc.le) (le_abs_self _))
  rw [← hu] at hi hj
  rw [hhalf] at hw
  have hij : i < j := by
    rw [hi, hj] at hc
    exact_mod_cast lt_of_mul_lt_mul_right hc hu0.le
  have hij' : (i : ℝ) + 1 ≤ j := by exact_mod_cast hij
  have hstep : B + u ≤ fl w := by rw [hi, hj]; nlinarith
  rcases le_total w B with h1 | h1
  · linarith [nearest_le (hp w) hB h1]
  · rw [abs_of_nonneg (by linarith : 0 ≤ fl w - w), abs_of_nonpos (by linarith : B - w ≤ 0)] at hn
    linarith

/-- the exact value of the random position and its bounds, for products and sums with small relative errors -/
theorem pos_bounds {A B u P Q ε δ η : ℝ} (hA0 : 0 ≤ A) (hu0 : 0 ≤ u) (hδ0 : 0 ≤ δ)
    (hPl : u * B - u * B * ε ≤ P) (hPu : P ≤ u * B + η) (hQ : |Q - (1 - u) * A| ≤ (1 - u) * A * δ) (hAB : B * ε ≤ B - A) :
    A - A * δ ≤ P + Q ∧ P + Q ≤ B + η - (1 - u) * (B - A - A * δ) := by
  have hQ' := abs_le.1 hQ
  constructor
  · have h1 : 0 ≤ u * (B - A - B * ε) := mul_nonneg hu0 (by linarith)
    have h2 : (1 - u) * A * δ ≤ A * δ := by
      have := mul_nonneg hA0 hδ0
      nlinarith
    nlinarith
  · nlinarith

theorem mem_max {p : ℕ} {a b : ℝ} (ha : a ∈ F p) (hb : b ∈ F p) : max a b ∈ F p := by
  rcases max_choice a b with h | h <;> rw [h] <;> assumption

theorem mem_min {p : ℕ} {a b : ℝ} (ha : a ∈ F p) (hb : b ∈ F p) : min a b ∈ F p := by
  rcases min_choice a b with h | h <;> rw [h] <;> assumption

/-- a random convex combination of two stored numbers, computed as in `pos_lgrngn_domain`, lies between them -/
theorem combination_between {fl fq : ℝ → ℝ} (hp : Rounds 24 fl) (hq : Rounds 53 fq) {A B u : ℝ} (hA : A ∈ F 24) (hB : B ∈ F 24)
    (hu : u ∈ F 24) (hA0 : 0 ≤ A) (hu0 : 0 ≤ u) (hu1 : u ≤ 1) (hB0 : 0 < B) (hAB : B ≤ 2 ^ 20 * (B - A)) :
    A ≤ fl (fq (fl (u * B) + fq (fq (1 - u) * A))) ∧ fl (fq (fl (u * B) + fq (fq (1 - u) * A))) ≤ B := by
  have e53 : (2 : ℝ) ^ (-((53 : ℕ) : ℤ)) = 1 / 2 ^ 53 := by rw [zpow_neg, zpow_natCast]; norm_num
  have e24 : (2 : ℝ) ^ (-((24 : ℕ) : ℤ)) = 1 / 2 ^ 24 := by rw [zpow_neg, zpow_natCast]; norm_num
  have hAltB : A < B := by
    by_contra hc
    push Not at hc
    nlinarith
  rcases hu1.eq_or_lt with h1 | h1
  · subst h1
    rw [one_mul, nearest_self (hp B) hB, sub_self, nearest_self (hq 0) (zero_mem _), zero_mul, nearest_self (hq 0) (zero_mem _),
      add_zero, nearest_self (hq B) (F_mono (by norm_num) hB), nearest_self (hp B) hB]
    exact ⟨hAltB.le, le_rfl⟩
  have m1 : (1 : ℝ) ∈ F 24 := by simpa using nat_mem (p := 24) (n := 1) (by norm_num) (by norm_num)
  have hgu := gap hu m1 one_pos h1
  rw [e24, one_mul] at hgu
  obtain ⟨m, hm1, hm2⟩ := exists_mem_Ico_zpow hB0 (by norm_num : (1 : ℝ) < 2)
  have huB : 0 ≤ u * B := mul_nonneg hu0 hB0.le
  have huB1 : u * B ≤ B := by nlinarith
  have rP := rel_error (by norm_num) (hp (u * B))
  have aP := abs_error (by norm_num) (hp (u * B)) (m := m) (by rw [abs_of_nonneg huB]; linarith)
  have rV := rel_error (by norm_num) (hq (1 - u))
  have hV0 : 0 ≤ fq (1 - u) := le_nearest (hq _) (zero_mem _) (by linarith)
  have rQ := rel_error (by norm_num) (hq (fq (1 - u) * A))
  have hQ0 : 0 ≤ fq (fq (1 - u) * A) := le_nearest (hq _) (zero_mem _) (mul_nonneg hV0 hA0)
  have hP0 : 0 ≤ fl (u * B) := le_nearest (hp _) (zero_mem _) huB
  have rS := rel_error (by norm_num) (hq (fl (u * B) + fq (fq (1 - u) * A)))
  have lower := @le_round_of_close 24 fl hp A (fq (fl (u * B) + fq (fq (1 - u) * A))) hA hA0
  have upper := @round_le_of_close 24 fl hp B (fq (fl (u * B) + fq (fq (1 - u) * A))) hB m hm1
  rw [e53] at rV rQ rS
  rw [e24] at rP lower
  rw [abs_of_nonneg huB] at rP
  rw [abs_of_nonneg (by linarith : 0 ≤ 1 - u)] at rV
  rw [abs_of_nonneg (mul_nonneg hV0 hA0)] at rQ
  rw [abs_of_nonneg (add_nonneg hP0 hQ0)] at rS
  have hη : (2 : ℝ) ^ (m - ((24 : ℕ) : ℤ)) ≤ B := by
    refine le_trans ?_ hm1
    exact zpow_le_zpow_right₀ (by norm_num) (by norm_num)
  generalize (2 : ℝ) ^ (m - ((24 : ℕ) : ℤ)) = η at *
  generalize fl (u * B) = P at *
  generalize fq (1 - u) = V at *
  generalize fq (V * A) = Q at *
  generalize fq (P + Q) = w at *
  have rV' := abs_le.1 rV
  have rQ' := abs_le.1 rQ
  have rS' := abs_le.1 rS
  have rP' := abs_le.1 rP
  have aP' := abs_le.1 aP
  have hQ : |Q - (1 - u) * A| ≤ (1 - u) * A * (1 / 2 ^ 51) := by
    have c1 : |V - (1 - u)| * A ≤ (1 - u) * (1 / 2 ^ 53) * A := mul_le_mul_of_nonneg_right rV hA0
    have c2 : V * A ≤ 2 * ((1 - u) * A) := by
      have : V ≤ 2 * (1 - u) := by
        norm_num at rV'
        linarith
      nlinarith
    have c3 : Q - (1 - u) * A = (Q - V * A) + (V - (1 - u)) * A := by ring
    rw [c3]
    refine le_trans (abs_add_le _ _) ?_
    rw [abs_mul, abs_of_nonneg hA0]
    have c4 : 0 ≤ (1 - u) * A := mul_nonneg (by linarith) hA0
    norm_num at c1 rQ ⊢
    linarith
  obtain ⟨l1, l2⟩ := pos_bounds hA0 hu0 (by norm_num : (0 : ℝ) ≤ 1 / 2 ^ 51) (P := P) (Q := Q) (η := η) (ε := 1 / 2 ^ 24) (B := B)
    (by linarith) (by linarith) hQ (by norm_num at hAB ⊢; linarith)
  constructor
  · refine lower ?_
    have : (P + Q) * (1 - 1 / 2 ^ 53) ≤ w := by linarith
    have : (A - A * (1 / 2 ^ 51)) * (1 - 1 / 2 ^ 53) ≤ (P + Q) * (1 - 1 / 2 ^ 53) := mul_le_mul_of_nonneg_right l1 (by norm_num)
    norm_num at *
    linarith
  · refine upper ?_
    have c1 : 1 / 2 ^ 24 * (B / 2 ^ 21) ≤ (1 - u) * (B - A - A * (1 / 2 ^ 51)) := by
      refine mul_le_mul hgu ?_ (by positivity) (by linarith)
      norm_num at hAB ⊢
      linarith
    have c2 : (P + Q) * (1 / 2 ^ 53) ≤ 2 * B * (1 / 2 ^ 53) := by
      refine mul_le_mul_of_nonneg_right ?_ (by norm_num)
      have : 0 < 1 / 2 ^ 24 * (B / 2 ^ 21) := by positivity
      linarith
    norm_num at c1 c2 l2 rS' ⊢
    linarith

/-- **C117** (single precision) a new droplet is placed in the part of its cell that belongs to the domain, ends included -/
theorem place_single_closed_partial {fl fq : ℝ → ℝ} (hp : Rounds 24 fl) (hq : Rounds 53 fq) {p0 p1 dp u : ℝ} {ii : ℕ} (h0 : p0 ∈ F 24)
    (h1 : p1 ∈ F 24) (hu : u ∈ F 24) (hp0 : 0 ≤ p0) (hu0 : 0 ≤ u) (hu1 : u ≤ 1) (hpos : 0 < min p1 (fl ((ii + 1) * dp)))
    (hwide : min p1 (fl ((ii + 1) * dp)) ≤ 2 ^ 20 * (min p1 (fl ((ii + 1) * dp)) - max p0 (fl (ii * dp)))) :
    max p0 (fl (ii * dp)) ≤ posFl fl fq p0 p1 dp u ii ∧ posFl fl fq p0 p1 dp u ii ≤ min p1 (fl ((ii + 1) * dp)) :=
  combination_between hp hq (mem_max h0 (hp _).1) (mem_min h1 (hp _).1) hu (le_trans hp0 (le_max_left _ _)) hu0 hu1 hpos hwide

/-- **C117 fails at the upper end**: with 7 cells of size 1 and the domain `[0, 7]`, in single precision the random number `1 - 2^-24`, below 1,
places the droplet created in the last cell exactly at the upper end of the domain; the cell index of this position, which the
predictor-corrector scheme computes before it applies any boundary condition, is 7: there is no such cell -/
theorem place_reaches_end {fl fq : ℝ → ℝ} (hp : Rounds 24 fl) (hq : Rounds 53 fq) :
    (1 - (2 : ℝ) ^ (-24 : ℤ)) ∈ F 24 ∧ (0 : ℝ) ≤ 1 - (2 : ℝ) ^ (-24 : ℤ) ∧ 1 - (2 : ℝ) ^ (-24 : ℤ) < 1 ∧
      posFl fl fq 0 7 1 (1 - (2 : ℝ) ^ (-24 : ℤ)) 6 = 7 ∧
      cellIdx fq 1 (posFl fl fq 0 7 1 (1 - (2 : ℝ) ^ (-24 : ℤ)) 6) = some 7 := by
  have n7 : fl 7 = 7 := nearest_self (hp _) (by simpa using nat_mem (p := 24) (n := 7) (by norm_num) (by norm_num))
  have n6 : fl 6 = 6 := nearest_self (hp _) (by simpa using nat_mem (p := 24) (n := 6) (by norm_num) (by norm_num))
  have hpos : posFl fl fq 0 7 1 (1 - (2 : ℝ) ^ (-24 : ℤ)) 6 = 7 := by
    unfold posFl
    have a1 : ((6 : ℕ) + 1 : ℝ) * 1 = 7 := by norm_num
    have a2 : ((6 : ℕ) : ℝ) * 1 = 6 := by norm_num
    rw [a1, a2, n7, n6, min_self, max_eq_right (by norm_num)]
    have b1 : fl ((1 - (2 : ℝ) ^ (-24 : ℤ)) * 7) = (14680063 : ℤ) * (2 : ℝ) ^ (-21 : ℤ) := by
      refine round_eval hp _ _ (by norm_num) (by norm_num) (by norm_num) ?_
      rw [abs_lt]; norm_num
    have b2 : fq (1 - (1 - (2 : ℝ) ^ (-24 : ℤ))) = (2 : ℝ) ^ (-24 : ℤ) := by
      rw [sub_sub_cancel]; exact nearest_self (hq _) (zpow_mem (by norm_num) _)
    have b3 : fq ((2 : ℝ) ^ (-24 : ℤ) * 6) = (2 : ℝ) ^ (-24 : ℤ) * 6 :=
      nearest_self (hq _) ⟨6, -24, by norm_num, by ring⟩
    rw [b1, b2, b3]
    have b4 : fq (((14680063 : ℤ) : ℝ) * (2 : ℝ) ^ (-21 : ℤ) + (2 : ℝ) ^ (-24 : ℤ) * 6) = 117440510 * (2 : ℝ) ^ (-24 : ℤ) := by
      rw [nearest_self (hq _) ⟨117440510, -24, by norm_num, by norm_num⟩]; norm_num
    rw [b4, round_eval hp 14680064 (-21) (by norm_num) (by norm_num) (by norm_num)]
    · norm_num
    · rw [abs_lt]; norm_num
  refine ⟨⟨16777215, -24, by norm_num, by norm_num⟩, by norm_num, by norm_num, hpos, ?_⟩
  rw [hpos]
  have : fq (7 / 1) = 7 := by
    rw [div_one]; exact nearest_self (hq _) (by simpa using nat_mem (p := 53) (n := 7) (by norm_num) (by norm_num))
  unfold cellIdx
  rw [this, toSizeT_nonneg (by norm_num) (by norm_num)]
  norm_num

/-- the hypotheses of `place_single_closed_partial` on an ordinary cell -/
example : ∃ fl fq : ℝ → ℝ, Rounds 24 fl ∧ Rounds 53 fq ∧ 2 ≤ posFl fl fq 0 8 1 (1 / 4) 2 ∧ posFl fl fq 0 8 1 (1 / 4) 2 ≤ 3 := by
  obtain ⟨fl, h⟩ := exists_rounds (p := 24) (by norm_num)
  obtain ⟨fq, h'⟩ := exists_rounds (p := 53) (by norm_num)
  have n3 : fl 3 = 3 := nearest_self (h _) (by simpa using nat_mem (p := 24) (n := 3) (by norm_num) (by norm_num))
  have n2 : fl 2 = 2 := nearest_self (h _) (by simpa using nat_mem (p := 24) (n := 2) (by norm_num) (by norm_num))
  have a1 : ((2 : ℕ) + 1 : ℝ) * 1 = 3 := by norm_num
  have a2 : ((2 : ℕ) : ℝ) * 1 = 2 := by norm_num
  have e1 : max (0 : ℝ) (fl (((2 : ℕ) : ℝ) * 1)) = 2 := by rw [a2, n2]; norm_num
  have e2 : min (8 : ℝ) (fl (((2 : ℕ) + 1 : ℝ) * 1)) = 3 := by rw [a1, n3]; norm_num
  have := place_single_closed_partial h h' (p0 := 0) (p1 := 8) (dp := 1) (u := 1 / 4) (ii := 2) (zero_mem _)
    (by simpa using nat_mem (p := 24) (n := 8) (by norm_num) (by norm_num)) ⟨1, -2, by norm_num, by norm_num⟩ le_rfl (by norm_num) (by norm_num)
    (by rw [e2]; norm_num) (by rw [e1, e2]; norm_num)
  rw [e1, e2] at this
  exact ⟨fl, fq, h, h', this⟩

end LCP.Float
