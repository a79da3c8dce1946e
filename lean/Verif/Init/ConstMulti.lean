import Verif.Init.DistAnalysis
import Verif.Toms.Props
import Verif.Toms.Range
import Mathlib.MeasureTheory.Integral.IntervalIntegral.Basic
import Mathlib.MeasureTheory.Measure.Lebesgue.Basic
import Mathlib.Algebra.Order.BigOperators.Group.Finset
import Mathlib.Topology.MetricSpace.Lipschitz
import Mathlib.Analysis.Complex.ExponentialBounds

/-!
# C96: initialisation with super-droplets of constant multiplicity
-/
namespace LCP.Init
open LCP.Toms MeasureTheory

/-! ### Limits -/

/-- the result of the solver is not one of the ends of the interval unless it is a root -/
theorem solveDbl_strict (f : ℝ → ℝ) (ax bx : ℝ) (hab : ax ≤ bx) (hsgn : f ax * f bx < 0) : ax < solveDbl f ax bx ∧ solveDbl f ax bx < bx := by
  have e1 : tolEps dbl 16 = 2 ^ (-15 : ℤ) := by
    unfold tolEps dbl
    norm_num
  obtain ⟨⟨a1, a2, a3, a4, a5⟩, -, -⟩ := final_ok dbl f (tolEps dbl 16) ax bx 100 (by norm_num [dbl]) (by norm_num [dbl])
    (by rw [e1]; norm_num [dbl]) (by norm_num) hab hsgn
  have nax : f ax ≠ 0 := fun h => by rw [h] at hsgn; simp at hsgn
  have nbx : f bx ≠ 0 := fun h => by rw [h] at hsgn; simp at hsgn
  unfold solveDbl solve
  set s := final dbl f (tolEps dbl 16) 100 ax bx (f ax) (f bx)
  rcases a5 with ⟨g1, g2⟩ | ⟨g1, g2, g3⟩
  · have hr : result s = s.a := by unfold result; rw [if_pos g1]; ring
    rw [hr]
    exact ⟨lt_of_le_of_ne a1 fun h => nax (by rw [h]; exact g2), lt_of_le_of_ne (a2.trans a3) fun h => nbx (by rw [← h]; exact g2)⟩
  · have n1 : s.fa ≠ 0 := by intro h; rw [h] at g3; simp at g3
    have n2 : s.fb ≠ 0 := by intro h; rw [h] at g3; simp at g3
    have hr : result s = (s.a + s.b) / 2 := by unfold result; rw [if_neg n1, if_neg n2]
    have : s.a < s.b := lt_of_le_of_ne a2 fun h => by
      rw [g1, g2, h] at g3
      nlinarith [mul_self_nonneg (f s.b)]
    rw [hr]
    constructor <;> linarith

/-- **C96 (range).** For a continuous distribution falling below 10⁻²⁰ of the value `f xm` found as its maximum at both ends of the admissible range, the initialisation is not rejected, and the limits are near points
where the distribution is 10⁻²⁰ of that value, on both sides of `xm`. -/
theorem const_multi_range (f : ℝ → ℝ) (xm : ℝ) (hf : ContinuousOn f (Set.Icc (Real.log (1 / 10 ^ 14)) (Real.log (1 / 10 ^ 3)))) (h1 : Real.log (1 / 10 ^ 14) ≤ xm) (h2 : xm ≤ Real.log (1 / 10 ^ 3)) (hpos : 0 < f xm)
    (e1 : f (Real.log (1 / 10 ^ 14)) < f xm / 10 ^ 20) (e2 : f (Real.log (1 / 10 ^ 3)) < f xm / 10 ^ 20) :
    ∃ lo hi x1 x2, constMultiEntry f none xm = some (lo, hi) ∧ lo < xm ∧ xm < hi ∧ f x1 = f xm / 10 ^ 20 ∧ f x2 = f xm / 10 ^ 20 ∧ x1 ≤ xm ∧ xm ≤ x2 ∧
      |lo - x1| ≤ max (2 ^ (-16 : ℤ) * |x1|) ((xm - Real.log (1 / 10 ^ 14)) / 2 ^ 25) ∧ |hi - x2| ≤ max (2 ^ (-16 : ℤ) * |x2|) ((Real.log (1 / 10 ^ 3) - xm) / 2 ^ 25) := by
  set g := fun x => f x + -(f xm / distThreshold) with hg
  have hgx : 0 < g xm := by
    simp only [hg]
    have : f xm / 10 ^ 20 < f xm := div_lt_self hpos (by norm_num)
    linarith
  have hg1 : g (Real.log rdMinInit) < 0 := by simp only [hg]; linarith
  have hg2 : g (Real.log rdMaxInit) < 0 := by simp only [hg]; linarith
  have s1 : g (Real.log rdMinInit) * g xm < 0 := mul_neg_of_neg_of_pos hg1 hgx
  have s2 : g xm * g (Real.log rdMaxInit) < 0 := mul_neg_of_pos_of_neg hgx hg2
  have c : ContinuousOn g (Set.Icc (Real.log (1 / 10 ^ 14)) (Real.log (1 / 10 ^ 3))) := hf.add continuousOn_const
  obtain ⟨x1, m1, r1, a1⟩ := solveDbl_accuracy g (Real.log rdMinInit) xm h1 s1 (c.mono (Set.Icc_subset_Icc le_rfl h2))
  obtain ⟨x2, m2, r2, a2⟩ := solveDbl_accuracy g xm (Real.log rdMaxInit) h2 s2 (c.mono (Set.Icc_subset_Icc h1 le_rfl))
  have b1 := (solveDbl_strict g (Real.log rdMinInit) xm h1 s1).2
  have b2 := (solveDbl_strict g xm (Real.log rdMaxInit) h2 s2).1
  refine ⟨solveDbl g (Real.log rdMinInit) xm, solveDbl g xm (Real.log rdMaxInit), x1, x2, ?_, b1, b2, ?_, ?_, m1.2, m2.1, a1, a2⟩
  · unfold constMultiEntry constMultiRange
    simp only []
    rw [if_neg]
    exact not_le.2 (b1.trans b2)
  · simp only [hg] at r1; linarith
  · simp only [hg] at r2; linarith

/-- the hypotheses are met: a log-normal distribution around 2 nm -/
example : ∃ lo hi x1 x2, constMultiEntry (fun x => Real.exp (-(x + 20) ^ 2)) none (-20) = some (lo, hi) ∧ lo < -20 ∧ -20 < hi ∧
    Real.exp (-(x1 + 20) ^ 2) = 1 / 10 ^ 20 ∧ Real.exp (-(x2 + 20) ^ 2) = 1 / 10 ^ 20 := by
  have l1 : Real.log (1 / 10 ^ 14) ≤ -32 := by
    rw [Real.log_le_iff_le_exp (by positivity), Real.exp_neg, one_div]
    apply inv_anti₀ (Real.exp_pos _)
    have : Real.exp 32 = Real.exp 1 ^ 32 := by rw [← Real.exp_nat_mul]; norm_num
    rw [this]
    refine (pow_le_pow_left₀ (Real.exp_pos 1).le (by linarith [Real.exp_one_lt_d9] : Real.exp 1 ≤ 2.7183) 32).trans ?_
    norm_num
  have l2 : -8 ≤ Real.log (1 / 10 ^ 3) := by
    rw [Real.le_log_iff_exp_le (by positivity), Real.exp_neg, one_div]
    apply inv_anti₀ (by positivity)
    have : Real.exp 8 = Real.exp 1 ^ 8 := by rw [← Real.exp_nat_mul]; norm_num
    rw [this]
    refine le_trans ?_ (pow_le_pow_left₀ (by norm_num) (by linarith [Real.exp_one_gt_d9] : 2.7 ≤ Real.exp 1) 8)
    norm_num
  have sm : ∀ x : ℝ, 144 ≤ (x + 20) ^ 2 → Real.exp (-(x + 20) ^ 2) < 1 / 10 ^ 20 := by
    intro x hx
    have h1 : Real.exp (-(x + 20) ^ 2) ≤ Real.exp (-144) := Real.exp_le_exp.2 (by linarith)
    refine lt_of_le_of_lt h1 ?_
    rw [Real.exp_neg, one_div]
    apply inv_strictAnti₀ (by positivity)
    have : Real.exp 144 = Real.exp 1 ^ 144 := by rw [← Real.exp_nat_mul]; norm_num
    rw [this]
    refine lt_of_lt_of_le ?_ (pow_le_pow_left₀ (by norm_num) (by linarith [Real.exp_one_gt_d9] : 2 ≤ Real.exp 1) 144)
    norm_num
  have at20 : Real.exp (-((-20 : ℝ) + 20) ^ 2) / 10 ^ 20 = 1 / 10 ^ 20 := by norm_num
  obtain ⟨lo, hi, x1, x2, h, a, b, c, d, -⟩ := const_multi_range (fun x => Real.exp (-(x + 20) ^ 2)) (-20) (by fun_prop) (by linarith) (by linarith) (Real.exp_pos _)
    (by rw [at20]; exact sm _ (by nlinarith)) (by rw [at20]; exact sm _ (by nlinarith))
  rw [at20] at c d
  exact ⟨lo, hi, x1, x2, h, a, b, c, d⟩

/-- **C96 (what is left out).** For a single-mode distribution, it is nowhere outside of two points where it equals the threshold larger than the threshold. -/
theorem const_multi_outside (f : ℝ → ℝ) (xm x1 x2 : ℝ) (hpos : 0 < f xm) (huni : ∀ x y z, x ≤ y → y ≤ z → min (f x) (f z) ≤ f y) (h1 : f x1 = f xm / 10 ^ 20) (h2 : f x2 = f xm / 10 ^ 20) (h3 : x1 ≤ xm) (h4 : xm ≤ x2)
    (x : ℝ) (hx : x ≤ x1 ∨ x2 ≤ x) : f x ≤ f xm / 10 ^ 20 := by
  have lt : f xm / 10 ^ 20 < f xm := div_lt_self hpos (by norm_num)
  rcases hx with hx | hx
  · rcases min_le_iff.1 (huni x x1 xm hx h3) with h | h <;> linarith
  · rcases min_le_iff.1 (huni xm x2 x h4 hx) with h | h <;> linarith

/-- **C96 (large tail).** With the range of radii given by the user, the initialisation of the large tail always ends with an exception: the tail would begin at the upper limit, which is also its end. -/
theorem tail_user_throws (f : ℝ → ℝ) (rmin rmax xm : ℝ) (lim : ℝ × ℝ) (h : sdConcUserEntry (rmin, rmax) = some lim) : tailEntry f (some (rmin, rmax)) xm lim.2 = none := by
  unfold sdConcUserEntry at h
  split_ifs at h
  have h := Option.some.inj h
  unfold tailEntry constMultiRange
  rw [← h]
  simp

example : sdConcUserEntry (1, 2) = some (Real.log 1, Real.log 2) := by
  unfold sdConcUserEntry
  rw [if_neg]
  exact not_le.2 (Real.log_lt_log (by norm_num) (by norm_num))

/-- **C96 (large tail, automatic range).** The tail begins exactly where the other super-droplets end, without gap or overlap. -/
theorem tail_adjacent (f : ℝ → ℝ) (user : Option (ℝ × ℝ)) (xm hi : ℝ) (lim : ℝ × ℝ) (h : tailEntry f user xm hi = some lim) : lim.1 = hi ∧ lim.1 < lim.2 := by
  unfold tailEntry at h
  simp only [] at h
  split_ifs at h with h1
  have h := Option.some.inj h
  rw [← h]
  exact ⟨rfl, not_le.1 h1⟩

/-! ### Numbers -/

theorem trapezoid (f : ℝ → ℝ) (L : ℝ) (hL : 0 ≤ L) (hf : ∀ x y, |f x - f y| ≤ L * |x - y|) (hi : ∀ a b, IntervalIntegrable f volume a b) (a h : ℝ) (hh : 0 ≤ h) :
    |(∫ x in a..(a + h), f x) - (f a + f (a + h)) / 2 * h| ≤ L * h * h := by
  have e : (∫ x in a..(a + h), f x) - (f a + f (a + h)) / 2 * h = ∫ x in a..(a + h), (f x - (f a + f (a + h)) / 2) := by
    rw [intervalIntegral.integral_sub (hi _ _) (by simp)]
    simp
    ring
  rw [e]
  have b := intervalIntegral.norm_integral_le_of_norm_le_const (a := a) (b := a + h) (C := L * h) (f := fun x => f x - (f a + f (a + h)) / 2) (by
    intro x hx
    rw [Set.uIoc_of_le (by linarith)] at hx
    have h1 := hf x a
    have h2 := hf x (a + h)
    rw [abs_of_nonneg (by linarith [hx.1] : 0 ≤ x - a)] at h1
    rw [abs_of_nonpos (by linarith [hx.2] : x - (a + h) ≤ 0)] at h2
    rw [Real.norm_eq_abs]
    have e : f x - (f a + f (a + h)) / 2 = ((f x - f a) + (f x - f (a + h))) / 2 := by ring
    rw [e, abs_div]
    have := abs_add_le (f x - f a) (f x - f (a + h))
    rw [abs_of_pos (by norm_num : (0 : ℝ) < 2)]
    have : L * (x - a) + L * -(x - (a + h)) = L * h := by ring
    have : 0 ≤ L * h := by positivity
    linarith)
  rw [Real.norm_eq_abs, show a + h - a = h by ring, abs_of_nonneg hh] at b
  exact b

theorem integrate_aux (f : ℝ → ℝ) (L : ℝ) (hL : 0 ≤ L) (hf : ∀ x y, |f x - f y| ≤ L * |x - y|) (hi : ∀ a b, IntervalIntegrable f volume a b) (lo h : ℝ) (hh : 0 ≤ h) (n : ℕ) (hn : 1 ≤ n) :
    |(∫ x in lo..(lo + n * h), f x) - ((f lo + f (lo + n * h)) / 2 + ∑ i ∈ Finset.Ico 1 n, f (lo + i * h)) * h| ≤ n * (L * h * h) := by
  induction n, hn using Nat.le_induction with
  | base =>
    have := trapezoid f L hL hf hi lo h hh
    simp
    simpa using this
  | succ n hn ih =>
    have t := trapezoid f L hL hf hi (lo + n * h) h hh
    rw [Finset.sum_Ico_succ_top hn]
    push_cast
    rw [show lo + (n + 1) * h = lo + n * h + h by ring, ← intervalIntegral.integral_add_adjacent_intervals (hi lo (lo + n * h)) (hi (lo + n * h) (lo + n * h + h))]
    have := abs_add_le ((∫ x in lo..(lo + n * h), f x) - ((f lo + f (lo + n * h)) / 2 + ∑ i ∈ Finset.Ico 1 n, f (lo + i * h)) * h) ((∫ x in (lo + n * h)..(lo + n * h + h), f x) - (f (lo + n * h) + f (lo + n * h + h)) / 2 * h)
    refine le_trans (le_of_eq ?_) (this.trans ?_)
    · congr 1; ring
    · linarith

/-- **C96 (integral).** The numerical integral of a distribution that changes by at most `L` per unit logarithm of radius, and is at most `M` in size, over a range not shorter than one bin differs from the integral by at most
`L·h·(range + h) + M·h`, with `h` the bin size. -/
theorem integrate_error (f : ℝ → ℝ) (L M : ℝ) (hL : 0 ≤ L) (hf : ∀ x y, |f x - f y| ≤ L * |x - y|) (hM : ∀ x, |f x| ≤ M) (lo hi h : ℝ) (hh : 0 < h) (hr : h ≤ hi - lo) :
    |integrate f lo hi h - ∫ x in lo..hi, f x| ≤ L * h * (hi - lo + h) + M * h := by
  have hlip : LipschitzWith ⟨L, hL⟩ f := LipschitzWith.of_dist_le_mul fun x y => by rw [Real.dist_eq, Real.dist_eq]; exact hf x y
  have hint : ∀ a b, IntervalIntegrable f volume a b := fun a b => hlip.continuous.intervalIntegrable a b
  unfold integrate toUint
  simp only []
  set n := ⌊(hi - lo) / h⌋₊
  have q0 : 0 ≤ (hi - lo) / h := div_nonneg (by linarith) hh.le
  have n1 : 1 ≤ n := by
    rw [Nat.one_le_floor_iff, le_div_iff₀ hh]; linarith
  have n2 : (n : ℝ) * h ≤ hi - lo := by rw [← le_div_iff₀ hh]; exact Nat.floor_le q0
  have n3 : hi - lo < (n + 1) * h := by rw [← div_lt_iff₀ hh]; exact Nat.lt_floor_add_one _
  have aux := integrate_aux f L hL hf hint lo h hh.le n n1
  have lst := hf (lo + n * h) hi
  rw [abs_of_nonpos (by linarith : lo + n * h - hi ≤ 0)] at lst
  have rem := intervalIntegral.norm_integral_le_of_norm_le_const (a := lo + n * h) (b := hi) (C := M) (f := f) (fun x _ => hM x)
  rw [Real.norm_eq_abs, abs_of_nonneg (by linarith : 0 ≤ hi - (lo + n * h))] at rem
  have hM0 : 0 ≤ M := (abs_nonneg _).trans (hM 0)
  have rem' : |∫ x in (lo + n * h)..hi, f x| ≤ M * h := rem.trans (mul_le_mul_of_nonneg_left (by linarith) hM0)
  rw [← intervalIntegral.integral_add_adjacent_intervals (hint lo (lo + n * h)) (hint (lo + n * h) hi)]
  have lst' : |f (lo + n * h) - f hi| ≤ L * h := lst.trans (mul_le_mul_of_nonneg_left (by linarith) hL)
  set S := ∑ i ∈ Finset.Ico 1 n, f (lo + i * h)
  set I1 := ∫ x in lo..(lo + n * h), f x
  set I2 := ∫ x in (lo + n * h)..hi, f x
  have e : ((f lo + f hi) / 2 + S) * h - (I1 + I2) = -(I1 - ((f lo + f (lo + n * h)) / 2 + S) * h) - (f (lo + n * h) - f hi) / 2 * h - I2 := by ring
  rw [e]
  have b1 : n * (L * h * h) ≤ L * h * (hi - lo) := by
    have := mul_le_mul_of_nonneg_left n2 (mul_nonneg hL hh.le)
    linarith
  have b2 : |(f (lo + n * h) - f hi) / 2 * h| ≤ L * h * h := by
    rw [abs_mul, abs_div, abs_of_pos hh, abs_of_pos (by norm_num : (0 : ℝ) < 2)]
    have : 0 ≤ L * h := by positivity
    nlinarith
  have t1 := abs_sub (-(I1 - ((f lo + f (lo + n * h)) / 2 + S) * h) - (f (lo + n * h) - f hi) / 2 * h) I2
  have t2 := abs_sub (-(I1 - ((f lo + f (lo + n * h)) / 2 + S) * h)) ((f (lo + n * h) - f hi) / 2 * h)
  rw [abs_neg] at t2
  linarith

/-- the count is the expected one, rounded -/
theorem count_error (conc dv rho prof : ℝ) (m : ℕ) (hm : 0 < m) (hn : 0 ≤ conc * dv * rho * prof) :
    |(countConstMulti conc dv rho prof m * nConstMulti m : ℕ) - conc * dv * rho * prof| ≤ m / 2 := by
  unfold countConstMulti nConstMulti concToNumber toUint
  have e : rho * (conc * dv) * prof = conc * dv * rho * prof := by ring
  rw [e]
  set N := conc * dv * rho * prof
  have hm' : (0 : ℝ) < m := by exact_mod_cast hm
  have q : 0 ≤ N / m + 1 / 2 := by positivity
  have a1 := Nat.floor_le q
  have a2 := Nat.lt_floor_add_one (N / m + 1 / 2)
  push_cast
  set k := (⌊N / m + 1 / 2⌋₊ : ℝ)
  have e2 : k * m - N = (k - N / m) * m := by field_simp
  rw [e2, abs_mul, abs_of_pos hm']
  have : |k - N / m| ≤ 1 / 2 := by rw [abs_le]; constructor <;> linarith
  nlinarith

/-- **C96 (numbers).** The multiplicities of the super-droplets created in a cell add up to the number of particles of the distribution in the cell (integral of the distribution over the range, times cell volume, relative density and
profile) up to half a multiplicity and the error of the numerical integration. -/
theorem const_multi_number (f : ℝ → ℝ) (L M : ℝ) (hL : 0 ≤ L) (hf : ∀ x y, |f x - f y| ≤ L * |x - y|) (hM : ∀ x, |f x| ≤ M) (hf0 : ∀ x, 0 ≤ f x) (lo hi dv rho prof : ℝ) (hr : binPrecision ≤ hi - lo) (hdv : 0 ≤ dv) (hrho : 0 ≤ rho)
    (hprof : 0 ≤ prof) (m : ℕ) (hm : 0 < m) :
    |(countConstMulti (integrate f lo hi binPrecision) dv rho prof m * nConstMulti m : ℕ) - (∫ x in lo..hi, f x) * dv * rho * prof| ≤
      m / 2 + dv * rho * prof * (L / 10 ^ 4 * (hi - lo + 1 / 10 ^ 4) + M / 10 ^ 4) := by
  have h1 := integrate_error f L M hL hf hM lo hi binPrecision (by norm_num) hr
  have hI : 0 ≤ integrate f lo hi binPrecision := by
    unfold integrate
    exact mul_nonneg (add_nonneg (by linarith [hf0 lo, hf0 hi]) (Finset.sum_nonneg fun _ _ => hf0 _)) (by norm_num)
  have h2 := count_error (integrate f lo hi binPrecision) dv rho prof m hm (by positivity)
  set A := integrate f lo hi binPrecision
  set B := ∫ x in lo..hi, f x
  have e : ((countConstMulti A dv rho prof m * nConstMulti m : ℕ) : ℝ) - B * dv * rho * prof = ((countConstMulti A dv rho prof m * nConstMulti m : ℕ) - A * dv * rho * prof) + (A - B) * (dv * rho * prof) := by ring
  rw [e]
  refine (abs_add_le _ _).trans ?_
  have c : 0 ≤ dv * rho * prof := by positivity
  rw [abs_mul, abs_of_nonneg c]
  have := mul_le_mul_of_nonneg_right h1 c
  have e2 : (L * binPrecision * (hi - lo + binPrecision) + M * binPrecision) * (dv * rho * prof) = dv * rho * prof * (L / 10 ^ 4 * (hi - lo + 1 / 10 ^ 4) + M / 10 ^ 4) := by
    show (L * (1 / 10 ^ 4) * (hi - lo + 1 / 10 ^ 4) + M * (1 / 10 ^ 4)) * (dv * rho * prof) = _
    ring
  rw [e2] at this
  exact add_le_add h2 this

/-- a range shorter than a bin is integrated as if it were a full bin -/
theorem integrate_short (f : ℝ → ℝ) (lo hi h : ℝ) (hh : 0 < h) (h1 : hi - lo < h) : integrate f lo hi h = (f lo + f hi) / 2 * h := by
  unfold integrate toUint
  have : ⌊(hi - lo) / h⌋₊ = 0 := by rw [Nat.floor_eq_zero, div_lt_iff₀ hh]; linarith
  simp [this]

/-! ### Radii -/

theorem upperBoundAux_spec (a : ℕ → ℝ) (u : ℝ) (n : ℕ) (ha : ∀ i j, i ≤ j → j < n → a i ≤ a j) : ∀ k lo hi, hi - lo ≤ k → lo ≤ hi → hi ≤ n → (∀ i < lo, a i ≤ u) → (∀ i, hi ≤ i → i < n → u < a i) →
    let r := upperBoundAux a u k lo hi
    r ≤ n ∧ (∀ i < r, a i ≤ u) ∧ ∀ i, r ≤ i → i < n → u < a i := by
  intro k
  induction k with
  | zero =>
    intro lo hi h1 h2 h3 h4 h5
    have : lo = hi := by omega
    subst this
    exact ⟨h3, h4, h5⟩
  | succ k ih =>
    intro lo hi h1 h2 h3 h4 h5
    unfold upperBoundAux
    by_cases hc : lo < hi
    · rw [if_pos hc]
      simp only []
      have m1 : lo ≤ (lo + hi) / 2 := by omega
      have m2 : (lo + hi) / 2 < hi := by omega
      split_ifs with hu
      · exact ih lo _ (by omega) m1 (by omega) h4 fun i hi1 hi2 => lt_of_lt_of_le hu (ha _ _ hi1 hi2)
      · exact ih _ hi (by omega) (by omega) h3 (fun i hi1 => (ha i _ (by omega) (by omega)).trans (not_lt.1 hu)) h5
    · rw [if_neg hc]
      have : lo = hi := by omega
      subst this
      exact ⟨h3, h4, h5⟩

theorem upperBound_spec (a : ℕ → ℝ) (n : ℕ) (u : ℝ) (ha : ∀ i j, i ≤ j → j < n → a i ≤ a j) :
    upperBound a n u ≤ n ∧ (∀ i < upperBound a n u, a i ≤ u) ∧ ∀ i, upperBound a n u ≤ i → i < n → u < a i := by
  exact upperBoundAux_spec a u n ha n 0 n (by omega) (by omega) (le_refl n) (fun i h => absurd h (Nat.not_lt_zero i)) (fun i h1 h2 => absurd h2 (by omega))

theorem cdfSize_pos (lo hi h : ℝ) (hh : 0 < h) (hr : lo ≤ hi) : 1 ≤ cdfSize lo hi h ∧ ((cdfSize lo hi h - 1 : ℕ) : ℝ) * h ≤ hi - lo := by
  unfold cdfSize toUint
  have q : 0 ≤ (hi - lo) / h := div_nonneg (by linarith) hh.le
  have e : ⌊(hi - lo) / h + 1⌋₊ = ⌊(hi - lo) / h⌋₊ + 1 := Nat.floor_add_one q
  rw [e]
  refine ⟨by omega, ?_⟩
  rw [Nat.add_sub_cancel, ← le_div_iff₀ hh]
  exact Nat.floor_le q

theorem cdf_mono (f : ℝ → ℝ) (hf : ∀ x, 0 ≤ f x) (lo hi h : ℝ) (i j : ℕ) (hij : i ≤ j) : cdf f lo hi h i ≤ cdf f lo hi h j := by
  unfold cdf
  apply div_le_div_of_nonneg_right _ (Finset.sum_nonneg fun _ _ => hf _)
  exact Finset.sum_le_sum_of_subset_of_nonneg (by intro x; simp only [Finset.mem_range]; omega) fun _ _ _ => hf _

theorem cdf_last (f : ℝ → ℝ) (lo hi h : ℝ) (hs : 0 < ∑ k ∈ Finset.range (cdfSize lo hi h - 1 + 1), f (lo + h * k)) : cdf f lo hi h (cdfSize lo hi h - 1) = 1 := by
  unfold cdf; exact div_self hs.ne'

theorem cdf_step (f : ℝ → ℝ) (lo hi h : ℝ) (i : ℕ) : cdf f lo hi h (i + 1) - cdf f lo hi h i = f (lo + h * (i + 1 : ℕ)) / ∑ k ∈ Finset.range (cdfSize lo hi h - 1 + 1), f (lo + h * k) := by
  unfold cdf
  rw [← sub_div, Finset.sum_range_succ (n := i + 1)]
  congr 1
  ring

/-- **C96 (radii).** The radii drawn are those of the grid of bins of the logarithm, lie in the range, and each is drawn with a probability proportional to the distribution there. -/
theorem radius_probability (f : ℝ → ℝ) (hf : ∀ x, 0 ≤ f x) (lo hi h : ℝ) (hh : 0 < h) (hr : lo ≤ hi) (hs : 0 < ∑ k ∈ Finset.range (⌊(hi - lo) / h⌋₊ + 1), f (lo + h * k)) :
    (∀ u, 0 ≤ u → u < 1 → ∃ i ≤ ⌊(hi - lo) / h⌋₊, lnrdConstMulti f lo hi h u = lo + i * h ∧ lo ≤ lnrdConstMulti f lo hi h u ∧ lnrdConstMulti f lo hi h u ≤ hi) ∧
    ∀ i ≤ ⌊(hi - lo) / h⌋₊, volume {u | 0 ≤ u ∧ u < 1 ∧ lnrdConstMulti f lo hi h u = lo + i * h} = ENNReal.ofReal (f (lo + h * i) / ∑ k ∈ Finset.range (⌊(hi - lo) / h⌋₊ + 1), f (lo + h * k)) := by
  obtain ⟨p1, p2⟩ := cdfSize_pos lo hi h hh hr
  have q : 0 ≤ (hi - lo) / h := div_nonneg (by linarith) hh.le
  have eN : cdfSize lo hi h = ⌊(hi - lo) / h⌋₊ + 1 := Nat.floor_add_one q
  have eN' : cdfSize lo hi h - 1 + 1 = ⌊(hi - lo) / h⌋₊ + 1 := by omega
  have hs' : 0 < ∑ k ∈ Finset.range (cdfSize lo hi h - 1 + 1), f (lo + h * k) := by rw [eN']; exact hs
  have last := cdf_last f lo hi h hs'
  have spec := fun u => upperBound_spec (cdf f lo hi h) (cdfSize lo hi h) u (fun i j hij _ => cdf_mono f hf lo hi h i j hij)
  have lt : ∀ u, u < 1 → upperBound (cdf f lo hi h) (cdfSize lo hi h) u < cdfSize lo hi h := by
    intro u hu
    by_contra hc
    have := (spec u).2.1 (cdfSize lo hi h - 1) (by omega)
    rw [last] at this
    linarith
  constructor
  · intro u h0 h1
    refine ⟨upperBound (cdf f lo hi h) (cdfSize lo hi h) u, by have := lt u h1; omega, rfl, ?_, ?_⟩
    · unfold lnrdConstMulti
      have : (0 : ℝ) ≤ (upperBound (cdf f lo hi h) (cdfSize lo hi h) u : ℝ) * h := by positivity
      linarith
    · unfold lnrdConstMulti
      have l := lt u h1
      have : (upperBound (cdf f lo hi h) (cdfSize lo hi h) u : ℝ) ≤ ((cdfSize lo hi h - 1 : ℕ) : ℝ) := by exact_mod_cast (by omega)
      have := mul_le_mul_of_nonneg_right this hh.le
      linarith
  · intro i hi'
    have hinj : ∀ u, lnrdConstMulti f lo hi h u = lo + i * h ↔ upperBound (cdf f lo hi h) (cdfSize lo hi h) u = i := by
      intro u
      unfold lnrdConstMulti
      constructor
      · intro hq
        have hq : (upperBound (cdf f lo hi h) (cdfSize lo hi h) u : ℝ) * h = i * h := by linarith
        exact_mod_cast mul_right_cancel₀ hh.ne' hq
      · intro hq; rw [hq]
    have cdf0 : ∀ k, 0 ≤ cdf f lo hi h k := fun k => div_nonneg (Finset.sum_nonneg fun _ _ => hf _) hs'.le
    have cdf1 : cdf f lo hi h i ≤ 1 := by rw [← last]; exact cdf_mono f hf lo hi h _ _ (by omega)
    have hset : {u | 0 ≤ u ∧ u < 1 ∧ lnrdConstMulti f lo hi h u = lo + i * h} = Set.Ico (if i = 0 then 0 else cdf f lo hi h (i - 1)) (cdf f lo hi h i) := by
      ext u
      simp only [Set.mem_ofPred_eq, Set.mem_Ico, hinj]
      constructor
      · rintro ⟨h0, h1, h2⟩
        obtain ⟨-, s2, s3⟩ := spec u
        rw [h2] at s2 s3
        refine ⟨?_, s3 i (le_refl i) (by omega)⟩
        split_ifs with hz
        · exact h0
        · exact s2 (i - 1) (by omega)
      · rintro ⟨h0, h1⟩
        obtain ⟨-, s2, s3⟩ := spec u
        have hu1 : u < 1 := lt_of_lt_of_le h1 cdf1
        refine ⟨?_, hu1, ?_⟩
        · split_ifs at h0 with hz
          · exact h0
          · exact (cdf0 _).trans h0
        · rcases Nat.lt_trichotomy (upperBound (cdf f lo hi h) (cdfSize lo hi h) u) i with hc | hc | hc
          · exfalso
            have := s3 (i - 1) (by omega) (by omega)
            rw [if_neg (by omega)] at h0
            linarith
          · exact hc
          · exfalso
            have := s2 i hc
            linarith
    rw [hset, Real.volume_Ico]
    congr 1
    rw [← eN']
    rcases i with _ | i
    · rw [if_pos rfl, sub_zero]
      unfold cdf
      simp
    · rw [if_neg (Nat.succ_ne_zero i), Nat.add_sub_cancel]
      exact cdf_step f lo hi h i

/-- the hypotheses are met: three radii, the middle one twice as frequent -/
example : ∃ f : ℝ → ℝ, (∀ x, 0 ≤ f x) ∧ 0 < ∑ k ∈ Finset.range (⌊((2 : ℝ) - 0) / 1⌋₊ + 1), f (0 + 1 * k) ∧ f 1 = 2 * f 0 := by
  refine ⟨fun x => if x = 1 then 2 else 1, fun x => by dsimp only; split_ifs <;> norm_num, ?_, by norm_num⟩
  apply Finset.sum_pos
  · intro i _; dsimp only; split_ifs <;> norm_num
  · exact ⟨0, by simp⟩

/-- the hypotheses of `const_multi_number` are met -/
example : ∃ f : ℝ → ℝ, (∀ x y, |f x - f y| ≤ 1 * |x - y|) ∧ (∀ x, |f x| ≤ 2) ∧ (∀ x, 0 ≤ f x) ∧ f 0 ≠ f 1 := by
  refine ⟨fun x => min 2 (max x 0), ?_, ?_, ?_, by norm_num⟩
  · intro x y
    rw [one_mul]
    exact (abs_min_sub_min_le_max _ _ _ _).trans (by simpa using abs_max_sub_max_le_max x 0 y 0)
  · intro x
    rw [abs_of_nonneg (le_min (by norm_num) (le_max_right _ _))]
    exact min_le_left _ _
  · intro x; exact le_min (by norm_num) (le_max_right _ _)

end LCP.Init
