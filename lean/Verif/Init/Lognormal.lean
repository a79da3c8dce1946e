import Verif.Init.RangeProps
import Verif.Init.ConstMulti
import Verif.Common.Profiles
import Mathlib.Analysis.Calculus.MeanValue
import Mathlib.Analysis.Real.Pi.Bounds

/-!
# C95, C96 for the log-normal distributions of the library
-/
namespace LCP.Init
open LCP.Common MeasureTheory

/-- **C95 (log-normal).** For a log-normal aerosol every super-droplet in the range found stands for at least one particle. -/
theorem search_lognormal (mean_r stdev n_tot : ℝ) (hs : 1 < stdev) (hn : 0 < n_tot) (p : SearchPar) (hdt : 0 < p.dt) (hv : 0 < p.vol) (n : ℕ) (lo hi : ℝ)
    (h : search (lognormal_n_e mean_r stdev n_tot) p n = some (.found lo hi)) (r : ℝ) (h1 : lo ≤ r) (h2 : r ≤ hi) : 1 ≤ particlesPerSD (lognormal_n_e mean_r stdev n_tot) p.sd p.dt p.vol lo hi r := by
  obtain ⟨a, -, -, b⟩ := lognormal_shape mean_r stdev n_tot hs hn
  exact search_unimodal _ p (fun x => (a x).le) hdt hv b n lo hi h r h1 h2

/-- `|y| exp(-y²/2) ≤ 1` -/
theorem gauss_slope (y : ℝ) : |y| * Real.exp (-(y ^ 2 / 2)) ≤ 1 := by
  rw [Real.exp_neg]
  rw [mul_inv_le_iff₀ (Real.exp_pos _), one_mul]
  have h1 := Real.add_one_le_exp (y ^ 2 / 2)
  have h2 : |y| ^ 2 = y ^ 2 := sq_abs y
  nlinarith [sq_nonneg (|y| - 1)]

/-- the slope and the size of a log-normal distribution -/
theorem lognormal_lipschitz (mean_r stdev n_tot : ℝ) (hs : 1 < stdev) (hn : 0 ≤ n_tot) :
    (∀ x y, |lognormal_n_e mean_r stdev n_tot x - lognormal_n_e mean_r stdev n_tot y| ≤ n_tot / Real.log stdev ^ 2 * |x - y|) ∧ ∀ x, |lognormal_n_e mean_r stdev n_tot x| ≤ n_tot / Real.log stdev := by
  have hs0 : 0 < Real.log stdev := Real.log_pos hs
  set s := Real.log stdev with hsd
  set m := Real.log mean_r with hmd
  have hp1 : 1 ≤ Real.sqrt (2 * Real.pi) := by
    rw [Real.one_le_sqrt]
    linarith [Real.pi_gt_three]
  have hp : 0 < Real.sqrt (2 * Real.pi) := lt_of_lt_of_le one_pos hp1
  have hfun : lognormal_n_e mean_r stdev n_tot = fun x => n_tot * Real.exp (-(x - m) ^ 2 / 2 / s ^ 2) / s / Real.sqrt (2 * Real.pi) := by
    funext x; rfl
  constructor
  · have hd : ∀ x, HasDerivAt (lognormal_n_e mean_r stdev n_tot) (-(n_tot / s ^ 2 / Real.sqrt (2 * Real.pi) * ((x - m) / s * Real.exp (-(((x - m) / s) ^ 2 / 2))))) x := by
      intro x
      rw [hfun]
      have h1 : HasDerivAt (fun x : ℝ => -(x - m) ^ 2 / 2 / s ^ 2) (-(x - m) / s ^ 2) x := by
        have := (((hasDerivAt_id x).sub_const m).pow 2).neg.div_const 2 |>.div_const (s ^ 2)
        refine this.congr_deriv ?_
        simp only [id]
        field_simp
        norm_num
        ring
      have h2 := ((h1.exp.const_mul n_tot).div_const s).div_const (Real.sqrt (2 * Real.pi))
      refine h2.congr_deriv ?_
      have : -(((x - m) / s) ^ 2 / 2) = -(x - m) ^ 2 / 2 / s ^ 2 := by field_simp
      rw [this]
      field_simp
    have hb : ∀ x, ‖-(n_tot / s ^ 2 / Real.sqrt (2 * Real.pi) * ((x - m) / s * Real.exp (-(((x - m) / s) ^ 2 / 2))))‖ ≤ n_tot / s ^ 2 := by
      intro x
      rw [norm_neg, Real.norm_eq_abs, abs_mul, abs_mul, abs_of_nonneg (by positivity : 0 ≤ n_tot / s ^ 2 / Real.sqrt (2 * Real.pi)), abs_of_pos (Real.exp_pos _)]
      have h1 := gauss_slope ((x - m) / s)
      have h2 : n_tot / s ^ 2 / Real.sqrt (2 * Real.pi) ≤ n_tot / s ^ 2 := div_le_self (by positivity) hp1
      have h3 : 0 ≤ n_tot / s ^ 2 / Real.sqrt (2 * Real.pi) := by positivity
      nlinarith
    intro x y
    have := Convex.norm_image_sub_le_of_norm_hasDerivWithin_le (s := Set.univ) (f := lognormal_n_e mean_r stdev n_tot) (fun x _ => (hd x).hasDerivWithinAt) (fun x _ => hb x) convex_univ (Set.mem_univ y) (Set.mem_univ x)
    simpa [Real.norm_eq_abs] using this
  · intro x
    rw [hfun]
    dsimp only
    rw [abs_of_nonneg (by positivity), div_le_iff₀ hp, div_mul_eq_mul_div, div_le_div_iff_of_pos_right hs0]
    have h1 : Real.exp (-(x - m) ^ 2 / 2 / s ^ 2) ≤ 1 := by
      rw [Real.exp_le_one_iff]
      have : 0 ≤ (x - m) ^ 2 / 2 / s ^ 2 := by positivity
      have e : -(x - m) ^ 2 / 2 / s ^ 2 = -((x - m) ^ 2 / 2 / s ^ 2) := by ring
      linarith
    have h2 : n_tot * Real.exp (-(x - m) ^ 2 / 2 / s ^ 2) ≤ n_tot * 1 := mul_le_mul_of_nonneg_left h1 hn
    have h3 : n_tot * 1 ≤ n_tot * Real.sqrt (2 * Real.pi) := mul_le_mul_of_nonneg_left hp1 hn
    linarith

/-- **C96 (log-normal).** For a log-normal aerosol with logarithm `s` of the geometric standard deviation, super-droplets of constant multiplicity in a cell represent the number of particles in the range of radii, up to half a multiplicity and
`(range + 10⁻⁴)/s² + 1/s` ten-thousandths of all particles. -/
theorem const_multi_lognormal (mean_r stdev n_tot : ℝ) (hs : 1 < stdev) (hn : 0 ≤ n_tot) (lo hi dv rho prof : ℝ) (hr : binPrecision ≤ hi - lo) (hdv : 0 ≤ dv) (hrho : 0 ≤ rho) (hprof : 0 ≤ prof) (m : ℕ) (hm : 0 < m) :
    |(countConstMulti (integrate (lognormal_n_e mean_r stdev n_tot) lo hi binPrecision) dv rho prof m * nConstMulti m : ℕ) - (∫ x in lo..hi, lognormal_n_e mean_r stdev n_tot x) * dv * rho * prof| ≤
      m / 2 + dv * rho * prof * n_tot / 10 ^ 4 * ((hi - lo + 1 / 10 ^ 4) / Real.log stdev ^ 2 + 1 / Real.log stdev) := by
  have hs0 : 0 < Real.log stdev := Real.log_pos hs
  obtain ⟨a, b⟩ := lognormal_lipschitz mean_r stdev n_tot hs hn
  have hp : 0 < Real.sqrt (2 * Real.pi) := Real.sqrt_pos.2 (by positivity)
  have := const_multi_number (lognormal_n_e mean_r stdev n_tot) _ _ (by positivity) a b (fun x => by unfold lognormal_n_e; positivity) lo hi dv rho prof hr hdv hrho hprof m hm
  refine this.trans (le_of_eq ?_)
  ring

end LCP.Init
