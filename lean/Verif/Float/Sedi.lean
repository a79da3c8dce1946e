import Verif.Float.Coal

/-!
# C130: settling in floating-point arithmetic

Source: src/impl/sedimentation/particles_impl_sedi.ipp:18-26, src/impl/subsidence/particles_impl_subs.ipp:18-26 (same formula, another
velocity), called once per step (src/particles_step.ipp).  Velocity and time step of each step are arbitrary.
-/
namespace LCP.Float

/-- `arg::_1 - dt * arg::_2` (particles_impl_sedi.ipp:20-25) -/
noncomputable def settle (A : Arith) (z dt v : ℝ) : ℝ := if A.fma then A.fl (z - dt * v) else A.fl (z - A.fl (dt * v))

/-- a history of steps, each with its time step and velocity -/
noncomputable def settles (A : Arith) : List (ℝ × ℝ) → ℝ → ℝ
  | [], z => z
  | (dt, v) :: t, z => settles A t (settle A z dt v)

/-- the droplet is above ground at the beginning of every step -/
def Aloft (A : Arith) : List (ℝ × ℝ) → ℝ → Prop
  | [], _ => True
  | (dt, v) :: t, z => 0 ≤ z ∧ Aloft A t (settle A z dt v)

/-- distance fallen in exact arithmetic (specification) -/
def fallen (l : List (ℝ × ℝ)) : ℝ := (l.map fun s => s.1 * s.2).sum

theorem settle_le {A : Arith} {p : ℕ} (h : Rounds p A.fl) {z dt v w : ℝ} (hw : w ∈ F p) (hz : z ≤ w) (hv : 0 ≤ dt * v) : settle A z dt v ≤ w := by
  unfold settle
  split_ifs
  · exact nearest_le (h _) hw (by linarith)
  · have := le_nearest (h (dt * v)) (zero_mem p) hv
    exact nearest_le (h _) hw (by linarith)

/-- **C130.** In a domain of height up to `2^(m+1)`, over any history of `T` steps during which the droplet is above ground and falls by less
than the height of the domain in each, its position differs from the exact one by at most half a unit in the last place of the height
per step, plus one relative rounding of the distance fallen. -/
theorem settle_drift {A : Arith} {p : ℕ} (h : Rounds p A.fl) (hp : 1 ≤ p) (m : ℤ) (l : List (ℝ × ℝ)) (z : ℝ) (hz : z ≤ 2 ^ (m + 1))
    (hl : ∀ s ∈ l, 0 ≤ s.1 * s.2 ∧ s.1 * s.2 ≤ 2 ^ (m + 1)) (ha : Aloft A l z) :
    |settles A l z - (z - fallen l)| ≤ l.length * (2 : ℝ) ^ (m - p) + fallen l * 2 ^ (-(p : ℤ)) := by
  induction l generalizing z with
  | nil => simp [settles, fallen]
  | cons s t ih =>
    obtain ⟨dt, v⟩ := s
    obtain ⟨h0, h1⟩ := hl (dt, v) (List.mem_cons_self ..)
    simp only at h0 h1
    have w1 := zpow_mem hp (m + 1)
    have i := ih (settle A z dt v) (settle_le h w1 hz h0) (fun s hs => hl s (List.mem_cons_of_mem _ hs)) ha.2
    have one : |settle A z dt v - (z - dt * v)| ≤ 2 ^ (m - (p : ℤ)) + dt * v * 2 ^ (-(p : ℤ)) := by
      have e0 := eps_pos p
      unfold settle
      split_ifs
      · have := abs_error hp (h (z - dt * v)) (m := m) (abs_le.2 ⟨by linarith [ha.1], by linarith⟩)
        exact this.trans (le_add_of_nonneg_right (mul_nonneg h0 e0.le))
      · have f0 := le_nearest (h (dt * v)) (zero_mem p) h0
        have f1 := nearest_le (h (dt * v)) w1 h1
        have a := abs_error hp (h (z - A.fl (dt * v))) (m := m) (abs_le.2 ⟨by linarith [ha.1], by linarith⟩)
        have b := rel_error hp (h (dt * v))
        rw [abs_of_nonneg h0] at b
        have : A.fl (z - A.fl (dt * v)) - (z - dt * v) = (A.fl (z - A.fl (dt * v)) - (z - A.fl (dt * v))) - (A.fl (dt * v) - dt * v) := by ring
        rw [this]
        exact (abs_sub _ _).trans (add_le_add a b)
    have fl : fallen ((dt, v) :: t) = dt * v + fallen t := by simp [fallen]
    have len : (((dt, v) :: t).length : ℝ) = t.length + 1 := by simp
    rw [fl, len]
    show |settles A t (settle A z dt v) - _| ≤ _
    have : settles A t (settle A z dt v) - (z - (dt * v + fallen t)) =
        (settles A t (settle A z dt v) - (settle A z dt v - fallen t)) + (settle A z dt v - (z - dt * v)) := by ring
    rw [this]
    refine (abs_add_le _ _).trans ?_
    have e : ((t.length : ℝ) + 1) * 2 ^ (m - (p : ℤ)) + (dt * v + fallen t) * 2 ^ (-(p : ℤ)) =
        (t.length * (2 : ℝ) ^ (m - (p : ℤ)) + fallen t * 2 ^ (-(p : ℤ))) + (2 ^ (m - (p : ℤ)) + dt * v * 2 ^ (-(p : ℤ))) := by ring
    rw [e]
    exact add_le_add i one

/-- numbers next to one above `2^m` are at least one unit in the last place away -/
theorem gap_below {p : ℕ} (hp : 1 ≤ p) {m : ℤ} {z w : ℝ} (hz : z ∈ F p) (hm : 2 ^ m < z) (hw : w ∈ F p) (hne : w ≠ z) :
    (2 : ℝ) ^ (m + 1 - p) ≤ |w - z| := by
  have u0 := two_zpow_pos (m + 1 - p)
  have p0 := two_zpow_pos m
  obtain ⟨j, hj⟩ := multiple hz (m := m) (by rw [abs_of_pos (p0.trans hm)]; exact hm.le)
  have key : ∀ y : ℝ, y ∈ F p → 2 ^ m ≤ y → y ≠ z → (2 : ℝ) ^ (m + 1 - p) ≤ |y - z| := by
    intro y hy hmy hyz
    obtain ⟨i, hi⟩ := multiple hy (m := m) (by rw [abs_of_pos (lt_of_lt_of_le p0 hmy)]; exact hmy)
    have hij : i ≠ j := fun e => hyz (by rw [hi, hj, e])
    rw [hi, hj, ← sub_mul, abs_mul, abs_of_pos u0]
    have : (1 : ℝ) ≤ |(i : ℝ) - j| := by
      have : (1 : ℤ) ≤ |i - j| := Int.one_le_abs (sub_ne_zero.2 hij)
      exact_mod_cast this
    nlinarith
  by_cases hc : 2 ^ m ≤ w
  · exact key w hw hc hne
  · push Not at hc
    have := key (2 ^ m) (zpow_mem hp m) le_rfl hm.ne
    rw [abs_of_neg (by linarith)] at this
    rw [abs_of_neg (by linarith)]
    linarith

/-- **C130, sharpness.** A droplet at a height above `2^m` that falls by less than half a unit in the last place in a step does not move
at all, in any number of steps: the whole distance is lost. -/
theorem settle_stuck {A : Arith} {p : ℕ} (h : Rounds p A.fl) (hp : 1 ≤ p) (m : ℤ) (z dt v : ℝ) (hz : z ∈ F p) (hm : 2 ^ m < z)
    (h0 : 0 ≤ dt * v) (h1 : dt * v < 2 ^ (m - p) * (1 - 2 ^ (-(p : ℤ)))) (T : ℕ) :
    settles A (List.replicate T (dt, v)) z = z := by
  have e0 := eps_pos p
  have half : (2 : ℝ) ^ (m + 1 - p) = 2 * 2 ^ (m - (p : ℤ)) := by
    rw [show m + 1 - (p : ℤ) = (m - p) + 1 by ring, zpow_add_one₀ (by norm_num)]; ring
  have u0 := two_zpow_pos (m - p)
  have stay : ∀ f : ℝ, 0 ≤ f → f < 2 ^ (m - (p : ℤ)) → A.fl (z - f) = z := by
    intro f hf hf'
    by_contra hne
    have a := gap_below hp hz hm (h (z - f)).1 hne
    have b := (h (z - f)).2 z hz
    rw [show z - (z - f) = f by ring, abs_of_nonneg hf] at b
    have c : |A.fl (z - f) - z| ≤ |A.fl (z - f) - (z - f)| + f := by
      have := abs_sub_abs_le_abs_sub (A.fl (z - f) - z) (-f)
      calc |A.fl (z - f) - z| = |(A.fl (z - f) - (z - f)) + (-f)| := by congr 1; ring
        _ ≤ |A.fl (z - f) - (z - f)| + |-f| := abs_add_le _ _
        _ = _ := by rw [abs_neg, abs_of_nonneg hf]
    linarith
  have step : settle A z dt v = z := by
    unfold settle
    split_ifs
    · refine stay _ h0 (h1.trans_le ?_)
      nlinarith
    · refine stay _ (le_nearest (h (dt * v)) (zero_mem p) h0) ?_
      have b := rel_error hp (h (dt * v))
      rw [abs_of_nonneg h0] at b
      have := (abs_le.1 b).2
      have h2 := mul_lt_mul_of_pos_right h1 (by linarith : (0 : ℝ) < 1 + 2 ^ (-(p : ℤ)))
      nlinarith [mul_nonneg u0.le (sq_nonneg ((2 : ℝ) ^ (-(p : ℤ))))]
  induction T with
  | zero => rfl
  | succ T ih => rw [List.replicate_succ]; show settles A _ (settle A z dt v) = z; rw [step, ih]

/-- in single precision: at 1500 m, with a time step of 0.1 s, a droplet settling at 0.5 mm/s (radius of about 2 micrometres) stays where it is for
ever, instead of falling by 0.05 mm in each step (1.8 m in an hour) -/
theorem haze_stuck {A : Arith} (h : Rounds 24 A.fl) (T : ℕ) :
    settles A (List.replicate T (0.1, 5e-4)) 1500 = 1500 ∧ fallen (List.replicate T (0.1, 5e-4)) = 5e-5 * T := by
  constructor
  · refine settle_stuck h (by norm_num) 10 1500 0.1 5e-4 ?_ (by norm_num) (by norm_num) ?_ T
    · have := nat_mem (p := 24) (n := 1500) (by norm_num) (by norm_num)
      simpa using this
    · norm_num
  · simp [fallen]; ring

/-- non-vacuity: the same history meets the hypotheses of `settle_drift` -/
example {A : Arith} (h : Rounds 24 A.fl) (T : ℕ) : Aloft A (List.replicate T (0.1, 5e-4)) 1500 ∧
    ∀ s ∈ List.replicate T ((0.1 : ℝ), (5e-4 : ℝ)), 0 ≤ s.1 * s.2 ∧ s.1 * s.2 ≤ 2 ^ ((10 : ℤ) + 1) := by
  constructor
  · have step : settle A 1500 0.1 5e-4 = 1500 := (haze_stuck h 1).1
    induction T with
    | zero => trivial
    | succ T ih => rw [List.replicate_succ]; exact ⟨by norm_num, by rw [step]; exact ih⟩
  · intro s hs
    rw [List.eq_of_mem_replicate hs]
    norm_num

end LCP.Float
