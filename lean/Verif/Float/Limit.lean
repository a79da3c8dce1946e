import Verif.Float.Lemmas
import Verif.Float.Kappa

/-!
# C135: using up a reservoir within one step, in floating-point arithmetic

Sources: include/libcloudph++/blk_1m/rhs_cellwise.hpp:20-61 (`rhs_cellwise_hlpr`), 77-146 (`rhs_cellwise_revap`),
include/libcloudph++/blk_1m/formulae.hpp:22-71, include/libcloudph++/blk_2m/rhs_cellwise.hpp:185-201 and the guards before and after it.
The tendencies are used by the caller as `x += dt * dot_x`, which is what the limiter `min(rr / dt, ...)` is made for.
`none` stands for NaN.  Overflow and underflow are not modelled.
-/
namespace LCP.Float

/-! ### Model -/

/-- `std::pow(x, q)` of the C library for a `q` that is not an integer: NaN for negative `x`, otherwise some number `pw x q` -/
noncomputable def powC (pw : ℝ → ℝ → ℝ) (x q : ℝ) : Option ℝ := if x < 0 then none else some (pw x q)

/-- options `conv`, `accr`, `r_c0`, `k_acnv` (blk_1m/options.hpp) -/
structure RainOpts where
  conv : Bool
  accr : Bool
  r_c0 : ℝ
  k_acnv : ℝ

/-- `autoconversion_rate` (formulae.hpp:24-30) -/
noncomputable def autoconvFl (A : Arith) (o : RainOpts) (rc : ℝ) : ℝ := A.fl (o.k_acnv * max 0 (A.fl (rc - o.r_c0)))

/-- `collection_rate` (formulae.hpp:36-42); `k2` is 2.2 as a `real_t` -/
noncomputable def collectFl (A : Arith) (pw : ℝ → ℝ → ℝ) (k2 rc rr : ℝ) : Option ℝ :=
  (powC pw rr (7 / 8)).map (fun y => A.fl (A.fl (k2 * rc) * y))

/-- `rc_to_rr` of `rhs_cellwise_hlpr` (rhs_cellwise.hpp:27-56) -/
noncomputable def rcToRr (A : Arith) (pw : ℝ → ℝ → ℝ) (k2 : ℝ) (o : RainOpts) (rc rr : ℝ) : Option ℝ :=
  let a := if o.conv then autoconvFl A o rc else 0
  if o.accr then (collectFl A pw k2 rc rr).map (fun c => A.fl (a + c)) else some a

/-- `rr_to_rv` before the limiter (rhs_cellwise.hpp:122-132): both powers of rain are NaN when there is less than none; otherwise some number `ev` -/
noncomputable def evapFl (ev rr : ℝ) : Option ℝ := if rr < 0 then none else some ev

/-- `std::min(rr / dt, rr_to_rv)` (rhs_cellwise.hpp:135); `std::min(a, b)` is `b < a ? b : a`, which is `a` when `b` is NaN -/
noncomputable def limitFl (A : Arith) (dt rr : ℝ) (e : Option ℝ) : ℝ :=
  match e with
  | none => A.fl (rr / dt)
  | some e => if e < A.fl (rr / dt) then e else A.fl (rr / dt)

/-- tendencies of cloud water and rain from `rhs_cellwise_revap`, the arrays having been zeroed by the caller (rhs_cellwise.hpp:58-59, 137-138) -/
noncomputable def rainRhs (A : Arith) (pw : ℝ → ℝ → ℝ) (k2 : ℝ) (o : RainOpts) (dt ev rc rr : ℝ) : Option (ℝ × ℝ) :=
  (rcToRr A pw k2 o rc rr).map (fun c => (-c, A.fl (c - limitFl A dt rr (evapFl ev rr))))

/-- the caller's step `x += dt * dot_x`, with or without contraction to a fused operation -/
noncomputable def euler (A : Arith) (dt x d : ℝ) : ℝ := A.mulAdd dt d x

/-- tendency of cloud water (or rain) in the double-moment scheme in a cell without activation, when nothing condenses onto or evaporates from the drops
because the content is not above the threshold `rc_eps` (blk_2m/rhs_cellwise.hpp:151-152, 166-167, 185-186: `max(0, -rc / dt)`) -/
noncomputable def rhs2m (A : Arith) (dt rc : ℝ) : ℝ := max 0 (A.fl (-rc / dt))

/-! ### Theorems -/

theorem limit_le (A : Arith) (dt rr ev : ℝ) : limitFl A dt rr (evapFl ev rr) ≤ A.fl (rr / dt) := by
  unfold limitFl evapFl
  by_cases h : rr < 0
  · rw [if_pos h]
  · rw [if_neg h]
    simp only []
    split_ifs with h2
    · exact h2.le
    · exact le_rfl

theorem euler_mono {A : Arith} {p : ℕ} (h : Rounds p A.fl) {dt x d d' : ℝ} (hdt : 0 < dt) (hd : d < d') : euler A dt x d ≤ euler A dt x d' := by
  have h1 : dt * d < dt * d' := mul_lt_mul_of_pos_left hd hdt
  unfold euler Arith.mulAdd
  split_ifs
  · exact nearest_mono (h _) (h _) (by linarith)
  · rcases (nearest_mono (h _) (h _) h1).lt_or_eq with h2 | h2
    · exact nearest_mono (h _) (h _) (by linarith)
    · rw [h2]

theorem euler_mono' {A : Arith} {p : ℕ} (h : Rounds p A.fl) {dt x d d' : ℝ} (hdt : 0 < dt) (hd : d ≤ d') : euler A dt x d ≤ euler A dt x d' := by
  rcases hd.lt_or_eq with hd | rfl
  · exact euler_mono h hdt hd
  · exact le_rfl

/-- the tendency of rain is not below minus the limit when nothing negative is converted -/
theorem dot_ge {A : Arith} {p : ℕ} (h : Rounds p A.fl) {dt rr ev c : ℝ} (hc : 0 ≤ c) :
    -A.fl (rr / dt) ≤ A.fl (c - limitFl A dt rr (evapFl ev rr)) :=
  le_nearest (h _) (neg_mem (h _).1) (by linarith [limit_le A dt rr ev])

theorem limit_back {A : Arith} {p : ℕ} (h : Rounds p A.fl) (hp : 1 ≤ p) {dt x : ℝ} (hdt : 0 < dt) (hx : 0 ≤ x) :
    -(4 * 2 ^ (-(p : ℤ)) * x) ≤ euler A dt x (-A.fl (x / dt)) := by
  obtain ⟨u, hu⟩ : ∃ u : ℝ, u = 2 ^ (-(p : ℤ)) := ⟨_, rfl⟩
  have hu0 : 0 < u := hu ▸ eps_pos p
  have hu1 : u ≤ 1 / 2 := hu ▸ eps_le_half hp
  have hxd : 0 ≤ x / dt := by positivity
  have q1 := rel_error hp (h (x / dt))
  rw [abs_of_nonneg hxd, ← hu] at q1
  have q0 := le_nearest (h (x / dt)) (zero_mem p) hxd
  have hq : dt * A.fl (x / dt) ≤ x * (1 + u) := by
    have : A.fl (x / dt) ≤ x / dt * (1 + u) := by linarith [(abs_le.1 q1).2]
    calc dt * A.fl (x / dt) ≤ dt * (x / dt * (1 + u)) := mul_le_mul_of_nonneg_left this hdt.le
      _ = x * (1 + u) := by field_simp
  have hq0 : 0 ≤ dt * A.fl (x / dt) := by positivity
  rw [← hu]
  have last : ∀ w, x - w ≥ -(x * (2 * u + u * u)) → -(4 * u * x) ≤ A.fl (x - w) := by
    intro w hw
    rcases le_total 0 (x - w) with h0 | h0
    · have := le_nearest (h (x - w)) (zero_mem p) h0
      have : 0 ≤ 4 * u * x := by positivity
      linarith
    · have e := rel_error hp (h (x - w))
      rw [abs_of_nonpos h0, ← hu] at e
      have e1 := (abs_le.1 e).1
      have : x * (2 * u + u * u) * (1 + u) ≤ 4 * u * x := by
        have : (2 * u + u * u) * (1 + u) ≤ 4 * u := by nlinarith
        nlinarith
      nlinarith
  unfold euler Arith.mulAdd
  split_ifs
  · rw [show dt * -A.fl (x / dt) + x = x - dt * A.fl (x / dt) by ring]
    refine last _ ?_
    nlinarith [mul_nonneg hx hu0.le, mul_nonneg (mul_nonneg hx hu0.le) hu0.le]
  · have e := rel_error hp (h (dt * -A.fl (x / dt)))
    rw [show |dt * -A.fl (x / dt)| = dt * A.fl (x / dt) by rw [mul_neg, abs_neg, abs_of_nonneg hq0], ← hu] at e
    have e1 := (abs_le.1 e).1
    rw [show A.fl (dt * -A.fl (x / dt)) + x = x - -A.fl (dt * -A.fl (x / dt)) by ring]
    refine last _ ?_
    have : dt * A.fl (x / dt) * (1 + u) ≤ x * (1 + u) * (1 + u) := mul_le_mul_of_nonneg_right hq (by linarith)
    nlinarith

/-- **C135** (partial) Whatever rain evaporation asks for and whatever is converted, after the step rain is below zero by no more than
four roundings of what it was. -/
theorem rain_nearly_nonneg_partial {A : Arith} {p : ℕ} (h : Rounds p A.fl) (hp : 1 ≤ p) {dt rr ev c : ℝ} (hdt : 0 < dt) (hrr : 0 ≤ rr) (hc : 0 ≤ c) :
    -(4 * 2 ^ (-(p : ℤ)) * rr) ≤ euler A dt rr (A.fl (c - limitFl A dt rr (evapFl ev rr))) :=
  (limit_back h hp hdt hrr).trans (euler_mono' h hdt (dot_ge h hc))

/-- **C135** (partial) If the time step is a power of two, rain never becomes negative. -/
theorem rain_nonneg_pow_two_partial {A : Arith} {p : ℕ} (h : Rounds p A.fl) {k : ℤ} {rr ev c : ℝ} (hF : rr ∈ F p) (hc : 0 ≤ c) :
    0 ≤ euler A (2 ^ k) rr (A.fl (c - limitFl A (2 ^ k) rr (evapFl ev rr))) := by
  have hq : A.fl (rr / 2 ^ k) = rr / 2 ^ k := by
    apply nearest_self (h _)
    rw [div_eq_mul_inv, ← zpow_neg]
    exact scale_mem hF _
  refine le_trans ?_ (euler_mono' h (two_zpow_pos k) (dot_ge h hc))
  rw [hq]
  have e : (2 : ℝ) ^ k * -(rr / 2 ^ k) = -rr := by
    have := (two_zpow_pos k).ne'
    field_simp
  unfold euler Arith.mulAdd
  split_ifs
  · rw [e]
    exact le_nearest (h _) (zero_mem p) (by linarith)
  · rw [e, nearest_self (h (-rr)) (neg_mem hF)]
    exact le_nearest (h _) (zero_mem p) (by linarith)

/-- the rain contents used in the counterexamples: about 1.75 times a power of two -/
noncomputable def rrBad (p : ℕ) (j : ℤ) : ℝ := ((7 * 2 ^ (p - 3) + 1 : ℤ) : ℝ) * 2 ^ j

/-- seven times the rounded seventh is too much -/
theorem seventh {p : ℕ} {fl : ℝ → ℝ} (h : Rounds p fl) (hp : 5 ≤ p) (j : ℤ) : fl (rrBad p j / 7) = (((2 : ℤ) ^ (p - 1) + 1 : ℤ) : ℝ) * 2 ^ (j - 2) := by
  have hj : (2 : ℝ) ^ (j - 2) = 2 ^ j / 4 := by rw [zpow_sub₀ (by norm_num)]; norm_num
  have hj0 := two_zpow_pos j
  have e1 : (2 : ℤ) ^ (p - 1) = 4 * 2 ^ (p - 3) := by
    rw [show p - 1 = (p - 3) + 2 by omega, pow_add]; ring
  have e2 : (2 : ℤ) ^ p = 8 * 2 ^ (p - 3) := by
    rw [show p = (p - 3) + 3 by omega, pow_add]; simp; ring
  have e3 : (1 : ℤ) ≤ 2 ^ (p - 3) := one_le_pow₀ (by norm_num)
  apply round_eval h _ _ (by omega)
  · omega
  · rw [e1, e2]; omega
  · rw [e1]
    unfold rrBad
    rw [hj]
    push_cast
    rw [show (7 * (2 : ℝ) ^ (p - 3) + 1) * 2 ^ j / 7 - (4 * 2 ^ (p - 3) + 1) * (2 ^ j / 4) = -(3 / 28 * 2 ^ j) by ring, abs_neg, abs_of_pos (by positivity)]
    linarith

theorem rrBad_pos (p : ℕ) (j : ℤ) : 0 < rrBad p j := by
  unfold rrBad
  have := two_zpow_pos j
  positivity

theorem rrBad_mem {p : ℕ} (hp : 5 ≤ p) (j : ℤ) : rrBad p j ∈ F p := by
  refine ⟨_, j, ?_, rfl⟩
  have e2 : (2 : ℤ) ^ p = 8 * 2 ^ (p - 3) := by
    rw [show p = (p - 3) + 3 by omega, pow_add]; simp; ring
  have e3 : (2 : ℤ) ≤ 2 ^ (p - 3) := by
    calc (2 : ℤ) = 2 ^ 1 := by norm_num
      _ ≤ _ := pow_le_pow_right₀ (by norm_num) (by omega)
  rw [abs_of_nonneg (by positivity), e2]
  omega

/-- **C135, negation**: in every precision (from 5 bits on), with and without fused operations, and in every order of magnitude there is a rain content that a step
of 7 s leaves *below* zero, whenever the evaporation asked for is at least all of the rain and nothing is converted to rain. -/
theorem rain_below_zero {A : Arith} {p : ℕ} (h : Rounds p A.fl) (hp : 5 ≤ p) (j : ℤ) {ev : ℝ} (hev : A.fl (rrBad p j / 7) ≤ ev) :
    euler A 7 (rrBad p j) (A.fl (0 - limitFl A 7 (rrBad p j) (evapFl ev (rrBad p j)))) < 0 := by
  have hpos := rrBad_pos p j
  have hj : (2 : ℝ) ^ (j - 2) = 2 ^ j / 4 := by rw [zpow_sub₀ (by norm_num)]; norm_num
  have hj0 := two_zpow_pos j
  have hl : limitFl A 7 (rrBad p j) (evapFl ev (rrBad p j)) = A.fl (rrBad p j / 7) := by
    unfold limitFl evapFl
    rw [if_neg (not_lt.2 hpos.le)]
    simp only []
    rw [if_neg (not_lt.2 hev)]
  have e1 : (2 : ℝ) ^ (p - 1) = 4 * 2 ^ (p - 3) := by
    rw [show p - 1 = (p - 3) + 2 by omega, pow_add]; ring
  have e2 : (2 : ℤ) ^ p = 8 * 2 ^ (p - 3) := by
    rw [show p = (p - 3) + 3 by omega, pow_add]; simp; ring
  have e2' : (2 : ℤ) ^ (p - 1) = 4 * 2 ^ (p - 3) := by
    rw [show p - 1 = (p - 3) + 2 by omega, pow_add]; ring
  have e3 : (2 : ℤ) < 2 ^ (p - 3) := by
    have : (2 : ℤ) ^ 2 ≤ 2 ^ (p - 3) := pow_le_pow_right₀ (by norm_num) (by omega)
    omega
  rw [hl, zero_sub, nearest_self (h (-A.fl (rrBad p j / 7))) (neg_mem (h _).1), seventh h hp j]
  have hv : (7 : ℝ) * -((((2 : ℤ) ^ (p - 1) + 1 : ℤ) : ℝ) * 2 ^ (j - 2)) = -((7 * 2 ^ (p - 3) + 7 / 4) * 2 ^ j) := by
    rw [hj]; push_cast; rw [e1]; ring
  unfold euler Arith.mulAdd
  split_ifs
  · rw [hv]
    have : -((7 * (2 : ℝ) ^ (p - 3) + 7 / 4) * 2 ^ j) + rrBad p j = ((-3 : ℤ) : ℝ) * 2 ^ (j - 2) := by
      unfold rrBad; rw [hj]; push_cast; ring
    rw [this]
    have hm : ((-3 : ℤ) : ℝ) * 2 ^ (j - 2) ∈ F p := ⟨-3, j - 2, by
      have : (2 : ℤ) ^ 5 ≤ 2 ^ p := pow_le_pow_right₀ (by norm_num) hp
      rw [show |(-3 : ℤ)| = 3 by norm_num]; omega, rfl⟩
    rw [nearest_self (h _) hm, hj]
    push_cast
    linarith
  · rw [hv]
    have hneg : Rounds p (fun x => -A.fl (-x)) := by
      intro x
      have := nearest_neg (h (-x))
      rwa [neg_neg] at this
    have hr := round_eval hneg (x := (7 * (2 : ℝ) ^ (p - 3) + 7 / 4) * 2 ^ j) (7 * 2 ^ (p - 3) + 2) j (by omega) (by omega) (by omega)
      (by push_cast
          rw [show (7 * (2 : ℝ) ^ (p - 3) + 7 / 4) * 2 ^ j - (7 * 2 ^ (p - 3) + 2) * 2 ^ j = -(1 / 4 * 2 ^ j) by ring, abs_neg, abs_of_pos (by positivity)]
          linarith)
    have hr' : A.fl (-((7 * (2 : ℝ) ^ (p - 3) + 7 / 4) * 2 ^ j)) = -(((7 * 2 ^ (p - 3) + 2 : ℤ) : ℝ) * 2 ^ j) := by
      rw [← hr, neg_neg]
    rw [hr']
    have : -(((7 * 2 ^ (p - 3) + 2 : ℤ) : ℝ) * 2 ^ j) + rrBad p j = -2 ^ j := by
      unfold rrBad; push_cast; ring
    rw [this, nearest_self (h _) (neg_mem (zpow_mem (by omega) j))]
    linarith

/-- **C135, negation**: below zero, by however little, both tendencies of the single-moment scheme are NaN as soon as accretion is switched on, whatever the
cloud water — also where there is none. -/
theorem negative_rain_is_nan (A : Arith) (pw : ℝ → ℝ → ℝ) (k2 : ℝ) {o : RainOpts} (ha : o.accr = true) (dt ev rc : ℝ) {rr : ℝ} (hrr : rr < 0) :
    rainRhs A pw k2 o dt ev rc rr = none := by
  unfold rainRhs rcToRr collectFl powC
  rw [if_pos hrr, ha]
  rfl

/-- **C135, negation**: so the rain evaporating in a cell without cloud water can make the next call return NaN: two calls and one step in between. -/
theorem evaporation_then_nan {A : Arith} {p : ℕ} (h : Rounds p A.fl) (hp : 5 ≤ p) (pw : ℝ → ℝ → ℝ) (k2 : ℝ) {o : RainOpts} (ha : o.accr = true) (hr0 : 0 ≤ o.r_c0)
    (j : ℤ) {ev : ℝ} (hev : A.fl (rrBad p j / 7) ≤ ev) : ∃ d, rainRhs A pw k2 o 7 ev 0 (rrBad p j) = some d ∧ d.1 = 0 ∧
      euler A 7 (rrBad p j) d.2 < 0 ∧ ∀ ev' rc', rainRhs A pw k2 o 7 ev' rc' (euler A 7 (rrBad p j) d.2) = none := by
  have hz : A.fl 0 = 0 := nearest_self (h 0) (zero_mem p)
  have hc : rcToRr A pw k2 o 0 (rrBad p j) = some 0 := by
    unfold rcToRr collectFl powC autoconvFl
    have h0 : A.fl (0 - o.r_c0) ≤ 0 := nearest_le (h _) (zero_mem p) (by linarith)
    rw [if_neg (not_lt.2 (rrBad_pos p j).le), ha, max_eq_left h0]
    simp [hz]
  refine ⟨_, by unfold rainRhs; rw [hc]; rfl, by simp, rain_below_zero h hp j hev, ?_⟩
  intro ev' rc'
  exact negative_rain_is_nan A pw k2 ha 7 ev' rc' (rain_below_zero h hp j hev)

/-- **C135** (partial) As long as rain is not negative, tendencies are numbers. -/
theorem rain_rates_finite_partial (A : Arith) (pw : ℝ → ℝ → ℝ) (k2 : ℝ) (o : RainOpts) (dt ev rc : ℝ) {rr : ℝ} (hrr : 0 ≤ rr) :
    ∃ d, rainRhs A pw k2 o dt ev rc rr = some d := by
  unfold rainRhs rcToRr collectFl powC
  rw [if_neg (not_lt.2 hrr)]
  cases o.accr <;> exact ⟨_, rfl⟩

/-- **C135** The double-moment scheme recovers: its processes are off below a positive threshold, and its limiter gives back what is missing;
after the step at most four roundings of the deficit are left, of either sign. -/
theorem double_moment_recovers {A : Arith} {p : ℕ} (h : Rounds p A.fl) (hp : 1 ≤ p) {dt rc : ℝ} (hdt : 0 < dt) (hrc : rc < 0) :
    0 ≤ rhs2m A dt rc ∧ |euler A dt rc (rhs2m A dt rc)| ≤ 4 * 2 ^ (-(p : ℤ)) * |rc| := by
  obtain ⟨u, hu⟩ : ∃ u : ℝ, u = 2 ^ (-(p : ℤ)) := ⟨_, rfl⟩
  have hu0 : 0 < u := hu ▸ eps_pos p
  have hu1 : u ≤ 1 / 2 := hu ▸ eps_le_half hp
  obtain ⟨x, rfl⟩ : ∃ x, rc = -x := ⟨-rc, by ring⟩
  have hx : 0 < x := by linarith
  have hxd : 0 < x / dt := by positivity
  have q1 := rel_error hp (h (x / dt))
  rw [abs_of_pos hxd, ← hu] at q1
  have q0 := le_nearest (h (x / dt)) (zero_mem p) hxd.le
  unfold rhs2m
  rw [neg_neg, max_eq_right q0, abs_neg, abs_of_pos hx, ← hu]
  refine ⟨q0, ?_⟩
  have hq : |dt * A.fl (x / dt) - x| ≤ x * u := by
    have : dt * A.fl (x / dt) - x = dt * (A.fl (x / dt) - x / dt) := by field_simp
    rw [this, abs_mul, abs_of_pos hdt]
    calc dt * |A.fl (x / dt) - x / dt| ≤ dt * (x / dt * u) := mul_le_mul_of_nonneg_left q1 hdt.le
      _ = x * u := by field_simp
  have hq0 : 0 ≤ dt * A.fl (x / dt) := by positivity
  have last : ∀ w, |w - x| ≤ x * (2 * u + u * u) → |A.fl (w + -x)| ≤ 4 * u * x := by
    intro w hw
    have e := rel_error hp (h (w + -x))
    rw [← hu, ← sub_eq_add_neg] at e
    rw [← sub_eq_add_neg]
    have h1 : |A.fl (w - x)| ≤ |w - x| * (1 + u) := by
      have : A.fl (w - x) = (A.fl (w - x) - (w - x)) + (w - x) := by ring
      rw [this]
      refine (abs_add_le _ _).trans ?_
      linarith
    have h2 : (2 * u + u * u) * (1 + u) ≤ 4 * u := by nlinarith
    calc |A.fl (w - x)| ≤ |w - x| * (1 + u) := h1
      _ ≤ x * (2 * u + u * u) * (1 + u) := mul_le_mul_of_nonneg_right hw (by linarith)
      _ = x * ((2 * u + u * u) * (1 + u)) := by ring
      _ ≤ x * (4 * u) := mul_le_mul_of_nonneg_left h2 hx.le
      _ = 4 * u * x := by ring
  unfold euler Arith.mulAdd
  split_ifs
  · refine last _ (hq.trans ?_)
    nlinarith [mul_pos hx hu0, mul_pos (mul_pos hx hu0) hu0]
  · refine last _ ?_
    have e := rel_error hp (h (dt * A.fl (x / dt)))
    rw [abs_of_nonneg hq0, ← hu] at e
    have hle : dt * A.fl (x / dt) ≤ x * (1 + u) := by linarith [(abs_le.1 hq).2]
    have : A.fl (dt * A.fl (x / dt)) - x = (A.fl (dt * A.fl (x / dt)) - dt * A.fl (x / dt)) + (dt * A.fl (x / dt) - x) := by ring
    rw [this]
    refine (abs_add_le _ _).trans ?_
    nlinarith [mul_le_mul_of_nonneg_right hle hu0.le]

/-! ### Concrete cases -/

/-- the hypotheses are met in double precision with fused operations: about 1.3e-5 kg/kg of rain, evaporating within 7 s -/
example : ∃ A : Arith, A.Ok 53 ∧ A.fma = true ∧ rrBad 53 (-69) ∈ F 53 ∧ 1 / 10 ^ 5 < rrBad 53 (-69) ∧ rrBad 53 (-69) < 2 / 10 ^ 5 ∧
    euler A 7 (rrBad 53 (-69)) (A.fl (0 - limitFl A 7 (rrBad 53 (-69)) (evapFl 1 (rrBad 53 (-69))))) < 0 := by
  obtain ⟨A, h1, h2⟩ := arith_exists 53 (by norm_num) true
  refine ⟨A, h1, h2, rrBad_mem (by norm_num) _, by unfold rrBad; norm_num, by unfold rrBad; norm_num, rain_below_zero h1.round (by norm_num) _ ?_⟩
  rw [seventh h1.round (by norm_num)]
  norm_num

end LCP.Float
