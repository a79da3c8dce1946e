import Verif.Common.Model
import Mathlib.Analysis.SpecialFunctions.Gaussian.GaussianIntegral
import Mathlib.Analysis.SpecialFunctions.Pow.Deriv
import Mathlib.Analysis.MeanInequalities
import Mathlib.MeasureTheory.Function.Jacobian
import Mathlib.Tactic.Linarith
import Mathlib.Tactic.Positivity
import Mathlib.Tactic.FieldSimp

/-!
# Aerosol distributions, hydrostatic pressure, mixing lengths (C98)

Sources: include/libcloudph++/common/{lognormal,hydrostatic,SGS_length_scale}.hpp
-/
namespace LCP.Common
open MeasureTheory

/-- `lognormal::n_e` (lognormal.hpp:21-36), SI units -/
noncomputable def lognormal_n_e (mean_r stdev n_tot lnr : ℝ) : ℝ :=
  n_tot * Real.exp (-(lnr - Real.log mean_r) ^ 2 / 2 / Real.log stdev ^ 2) / Real.log stdev / Real.sqrt (2 * Real.pi)

/-- `lognormal::n` (lognormal.hpp:38-53) -/
noncomputable def lognormal_n (mean_r stdev n_tot r : ℝ) : ℝ :=
  n_tot / r * Real.exp (-(Real.log (r / mean_r)) ^ 2 / 2 / Real.log stdev ^ 2) / Real.log stdev / Real.sqrt (2 * Real.pi)

/-- `earth::g` (earth.hpp) -/
noncomputable def grav : ℝ := 9.81

/-- `hydrostatic::p` (hydrostatic.hpp:25-40) -/
noncomputable def hydrostatic_p (z th_0 r_0 z_0 p_0 : ℝ) : ℝ :=
  p_1000 * ((p_0 / p_1000) ^ (R_d / c_pd) - R_d / c_pd * grav / th_0 / mix R_d R_v r_0 * (z - z_0)) ^ (c_pd / R_d)

/-- `SGS_length_scale::vertical` (SGS_length_scale.hpp:9-28) -/
def sgs_vertical1 (dx : ℝ) : ℝ := dx
/-- two dimensions -/
def sgs_vertical2 (_dx dz : ℝ) : ℝ := dz
/-- three dimensions -/
def sgs_vertical3 (_dx _dy dz : ℝ) : ℝ := dz
/-- `SGS_length_scale::geometric_mean` (SGS_length_scale.hpp:30-50) -/
def sgs_geometric1 (dx : ℝ) : ℝ := dx
/-- two dimensions -/
noncomputable def sgs_geometric2 (dx dz : ℝ) : ℝ := Real.sqrt (dx * dz)
/-- three dimensions -/
noncomputable def sgs_geometric3 (dx dy dz : ℝ) : ℝ := cbrt (dx * dy * dz)
/-- `SGS_length_scale::arithmetic_mean` (SGS_length_scale.hpp:52-72) -/
def sgs_arithmetic1 (dx : ℝ) : ℝ := dx
/-- two dimensions -/
noncomputable def sgs_arithmetic2 (dx dz : ℝ) : ℝ := (dx + dz) / 2
/-- three dimensions -/
noncomputable def sgs_arithmetic3 (dx dy dz : ℝ) : ℝ := (dx + dy + dz) / 3

/-! ### Log-normal distributions -/

/-- **C98 (log-normal, moments).** The `k`-th moment of radius of the distribution over the logarithm of radius is that of a log-normal distribution of `n_tot` particles with median radius `mean_r` and geometric standard deviation
`stdev`; for `k = 0`: the number of particles. -/
theorem lognormal_moment (mean_r stdev n_tot k : ℝ) (hm : 0 < mean_r) (hs : 1 < stdev) :
    ∫ x, Real.exp x ^ k * lognormal_n_e mean_r stdev n_tot x = n_tot * mean_r ^ k * Real.exp (k ^ 2 * Real.log stdev ^ 2 / 2) := by
  have hs0 : 0 < Real.log stdev := Real.log_pos hs
  set s := Real.log stdev with hsd
  set m := Real.log mean_r with hmd
  have e : ∀ x, Real.exp x ^ k * lognormal_n_e mean_r stdev n_tot x =
      (n_tot * (mean_r ^ k * Real.exp (k ^ 2 * s ^ 2 / 2)) / s / Real.sqrt (2 * Real.pi)) * Real.exp (-(1 / (2 * s ^ 2)) * (x - (m + k * s ^ 2)) ^ 2) := by
    intro x
    unfold lognormal_n_e
    rw [← hsd, ← hmd, ← Real.exp_mul, Real.rpow_def_of_pos hm, ← hmd, ← Real.exp_add]
    have : Real.exp (x * k) * (n_tot * Real.exp (-(x - m) ^ 2 / 2 / s ^ 2) / s / Real.sqrt (2 * Real.pi)) = n_tot * (Real.exp (x * k) * Real.exp (-(x - m) ^ 2 / 2 / s ^ 2)) / s / Real.sqrt (2 * Real.pi) := by ring
    rw [this, ← Real.exp_add]
    have : n_tot * Real.exp (m * k + k ^ 2 * s ^ 2 / 2) / s / Real.sqrt (2 * Real.pi) * Real.exp (-(1 / (2 * s ^ 2)) * (x - (m + k * s ^ 2)) ^ 2)
        = n_tot * (Real.exp (m * k + k ^ 2 * s ^ 2 / 2) * Real.exp (-(1 / (2 * s ^ 2)) * (x - (m + k * s ^ 2)) ^ 2)) / s / Real.sqrt (2 * Real.pi) := by ring
    rw [this, ← Real.exp_add]
    congr 4
    field_simp
    ring
  simp_rw [e]
  rw [integral_const_mul, integral_sub_right_eq_self (fun x => Real.exp (-(1 / (2 * s ^ 2)) * x ^ 2)), integral_gaussian]
  have : Real.sqrt (Real.pi / (1 / (2 * s ^ 2))) = s * Real.sqrt (2 * Real.pi) := by
    rw [show Real.pi / (1 / (2 * s ^ 2)) = s ^ 2 * (2 * Real.pi) by field_simp, Real.sqrt_mul (by positivity), Real.sqrt_sq hs0.le]
  rw [this]
  have hp : 0 < Real.sqrt (2 * Real.pi) := Real.sqrt_pos.2 (by positivity)
  field_simp

/-- **C98 (log-normal, number).** -/
theorem lognormal_number (mean_r stdev n_tot : ℝ) (hm : 0 < mean_r) (hs : 1 < stdev) : ∫ x, lognormal_n_e mean_r stdev n_tot x = n_tot := by
  have := lognormal_moment mean_r stdev n_tot 0 hm hs
  simpa using this

/-- **C98 (log-normal, two forms).** The distribution over radius and the one over its logarithm describe the same aerosol. -/
theorem lognormal_forms (mean_r stdev n_tot r : ℝ) (hm : 0 < mean_r) (hr : 0 < r) : lognormal_n mean_r stdev n_tot r * r = lognormal_n_e mean_r stdev n_tot (Real.log r) := by
  unfold lognormal_n lognormal_n_e
  rw [Real.log_div hr.ne' hm.ne']
  field_simp

/-- **C98 (log-normal, number over radii).** -/
theorem lognormal_number_radius (mean_r stdev n_tot : ℝ) (hm : 0 < mean_r) (hs : 1 < stdev) : ∫ r in Set.Ioi 0, lognormal_n mean_r stdev n_tot r = n_tot := by
  have h := integral_image_eq_integral_abs_deriv_smul (s := Set.univ) (f := Real.exp) (f' := Real.exp) MeasurableSet.univ (fun x _ => (Real.hasDerivAt_exp x).hasDerivWithinAt)
    (Real.exp_injective.injOn) (fun r => lognormal_n mean_r stdev n_tot r)
  rw [Set.image_univ, Real.range_exp] at h
  rw [h, setIntegral_univ]
  refine Eq.trans ?_ (lognormal_number mean_r stdev n_tot hm hs)
  congr 1
  funext x
  rw [abs_of_pos (Real.exp_pos x), smul_eq_mul, mul_comm, lognormal_forms _ _ _ _ hm (Real.exp_pos x), Real.log_exp]

/-- **C98 (log-normal, shape).** The distribution is positive, symmetric in the logarithm of radius around `mean_r`, largest there, and single-mode. -/
theorem lognormal_shape (mean_r stdev n_tot : ℝ) (hs : 1 < stdev) (hn : 0 < n_tot) :
    (∀ x, 0 < lognormal_n_e mean_r stdev n_tot x) ∧ (∀ d, lognormal_n_e mean_r stdev n_tot (Real.log mean_r + d) = lognormal_n_e mean_r stdev n_tot (Real.log mean_r - d)) ∧
    (∀ x y, |x - Real.log mean_r| ≤ |y - Real.log mean_r| ↔ lognormal_n_e mean_r stdev n_tot y ≤ lognormal_n_e mean_r stdev n_tot x) ∧
    ∀ x y z, x ≤ y → y ≤ z → min (lognormal_n_e mean_r stdev n_tot x) (lognormal_n_e mean_r stdev n_tot z) ≤ lognormal_n_e mean_r stdev n_tot y := by
  have hs0 : 0 < Real.log stdev := Real.log_pos hs
  have hp : 0 < Real.sqrt (2 * Real.pi) := Real.sqrt_pos.2 (by positivity)
  have key : ∀ x y, |x - Real.log mean_r| ≤ |y - Real.log mean_r| ↔ lognormal_n_e mean_r stdev n_tot y ≤ lognormal_n_e mean_r stdev n_tot x := by
    intro x y
    unfold lognormal_n_e
    rw [div_le_div_iff_of_pos_right hp, div_le_div_iff_of_pos_right hs0, mul_le_mul_iff_right₀ hn, Real.exp_le_exp, div_le_div_iff_of_pos_right (by positivity), div_le_div_iff_of_pos_right (by norm_num), neg_le_neg_iff, sq_le_sq]
  refine ⟨fun x => by unfold lognormal_n_e; positivity, fun d => ?_, key, ?_⟩
  · unfold lognormal_n_e
    congr 4
    ring
  · intro x y z h1 h2
    rcases le_total y (Real.log mean_r) with h | h
    · refine min_le_iff.2 (Or.inl ((key y x).1 ?_))
      rw [abs_of_nonpos (by linarith), abs_of_nonpos (by linarith)]; linarith
    · refine min_le_iff.2 (Or.inr ((key y z).1 ?_))
      rw [abs_of_nonneg (by linarith), abs_of_nonneg (by linarith)]; linarith

/-- a geometric standard deviation below one gives a negative distribution (not rejected) -/
theorem lognormal_negative (mean_r stdev n_tot x : ℝ) (hs0 : 0 < stdev) (hs : stdev < 1) (hn : 0 < n_tot) : lognormal_n_e mean_r stdev n_tot x < 0 := by
  have h := Real.log_neg hs0 hs
  have hp : 0 < Real.sqrt (2 * Real.pi) := Real.sqrt_pos.2 (by positivity)
  unfold lognormal_n_e
  exact div_neg_of_neg_of_pos (div_neg_of_pos_of_neg (by positivity) h) hp

/-! ### Hydrostatic pressure -/

theorem R_d_pos : 0 < R_d := by unfold R_d kaBoNA M_d; norm_num
theorem R_v_pos : 0 < R_v := by unfold R_v kaBoNA M_v M_H M_OH; norm_num

theorem mix_R_pos (r : ℝ) (hr : 0 ≤ r) : 0 < mix R_d R_v r := by
  have := R_d_pos; have := R_v_pos
  unfold mix; positivity

/-- **C98 (pressure at the reference level).** -/
theorem hydrostatic_ref (th_0 r_0 z_0 p_0 : ℝ) (hp : 0 < p_0) : hydrostatic_p z_0 th_0 r_0 z_0 p_0 = p_0 := by
  unfold hydrostatic_p
  have h1 : 0 < p_0 / p_1000 := div_pos hp (by norm_num [p_1000])
  have hR := R_d_pos
  have hc : 0 < c_pd := by norm_num [c_pd]
  rw [sub_self, mul_zero, sub_zero, ← Real.rpow_mul h1.le, show R_d / c_pd * (c_pd / R_d) = 1 by field_simp, Real.rpow_one]
  have : p_1000 ≠ 0 := by norm_num [p_1000]
  field_simp

/-- **C98 (hydrostatic balance).** As long as the pressure is positive, it falls with height at a rate of `g` times the density of moist air of mixing ratio `r_0` and (constant) potential temperature `th_0`. -/
theorem hydrostatic_balance (z th_0 r_0 z_0 p_0 : ℝ) (hr : 0 ≤ r_0) (hth : 0 < th_0)
    (hz : 0 < (p_0 / 100000) ^ (R_d / c_pd) - R_d / c_pd * 9.81 / th_0 / ((R_d + r_0 * R_v) / (1 + r_0)) * (z - z_0)) :
    ∃ p T rho, hydrostatic_p z th_0 r_0 z_0 p_0 = p ∧ 0 < p ∧ T = th_0 * (p / 100000) ^ (R_d / c_pd) ∧ p = rho * ((R_d + r_0 * R_v) / (1 + r_0)) * T ∧
      HasDerivAt (fun z => hydrostatic_p z th_0 r_0 z_0 p_0) (-(rho * 9.81)) z := by
  have hR := R_d_pos
  have hc : 0 < c_pd := by norm_num [c_pd]
  have hM : 0 < (R_d + r_0 * R_v) / (1 + r_0) := mix_R_pos r_0 hr
  set R := (R_d + r_0 * R_v) / (1 + r_0) with hRdef
  set q := R_d / c_pd with hq
  have hqi : c_pd / R_d = q⁻¹ := by rw [hq, inv_div]
  have hq0 : 0 < q := div_pos hR hc
  set A := (p_0 / 100000) ^ q
  set b := A - q * 9.81 / th_0 / R * (z - z_0) with hb
  have hval : hydrostatic_p z th_0 r_0 z_0 p_0 = 100000 * b ^ q⁻¹ := by
    unfold hydrostatic_p mix p_1000 grav
    rw [hqi]
  have hbq : 0 < b ^ q⁻¹ := Real.rpow_pos_of_pos hz _
  have hex : (100000 * b ^ q⁻¹ / 100000) ^ q = b := by
    rw [mul_div_cancel_left₀ _ (by norm_num), ← Real.rpow_mul hz.le, inv_mul_cancel₀ hq0.ne', Real.rpow_one]
  refine ⟨100000 * b ^ q⁻¹, th_0 * b, 100000 * b ^ q⁻¹ / (R * (th_0 * b)), hval, by positivity, by rw [hex], by field_simp, ?_⟩
  have hfun : (fun z => hydrostatic_p z th_0 r_0 z_0 p_0) = fun z => 100000 * (A - q * 9.81 / th_0 / R * (z - z_0)) ^ q⁻¹ := by
    funext z
    unfold hydrostatic_p mix p_1000 grav
    rw [hqi]
  rw [hfun]
  have d1 : HasDerivAt (fun z => A - q * 9.81 / th_0 / R * (z - z_0)) (-(q * 9.81 / th_0 / R)) z := by
    have := ((hasDerivAt_id z).sub_const z_0).const_mul (q * 9.81 / th_0 / R)
    have := this.const_sub A
    simpa using this
  have d2 := (d1.rpow_const (p := q⁻¹) (Or.inl hz.ne')).const_mul 100000
  have e : -(100000 * b ^ q⁻¹ / (R * (th_0 * b)) * 9.81) = 100000 * (-(q * 9.81 / th_0 / R) * q⁻¹ * (A - q * 9.81 / th_0 / R * (z - z_0)) ^ (q⁻¹ - 1)) := by
    rw [← hb, Real.rpow_sub_one hz.ne']
    field_simp
  rw [e]
  exact d2

/-- **C98 (pressure falls with height).** -/
theorem hydrostatic_anti (z z' th_0 r_0 z_0 p_0 : ℝ) (hr : 0 ≤ r_0) (hth : 0 < th_0) (hzz : z < z')
    (hz : 0 < (p_0 / 100000) ^ (R_d / c_pd) - R_d / c_pd * 9.81 / th_0 / ((R_d + r_0 * R_v) / (1 + r_0)) * (z' - z_0)) :
    hydrostatic_p z' th_0 r_0 z_0 p_0 < hydrostatic_p z th_0 r_0 z_0 p_0 := by
  have hR := R_d_pos
  have hc : 0 < c_pd := by norm_num [c_pd]
  have hM : 0 < (R_d + r_0 * R_v) / (1 + r_0) := mix_R_pos r_0 hr
  unfold hydrostatic_p mix p_1000 grav
  have hcoef : 0 < R_d / c_pd * 9.81 / th_0 / ((R_d + r_0 * R_v) / (1 + r_0)) := by positivity
  apply mul_lt_mul_of_pos_left _ (by norm_num)
  apply Real.rpow_lt_rpow hz.le _ (by positivity)
  nlinarith

example : 0 < ((100000 : ℝ) / 100000) ^ (R_d / c_pd) - R_d / c_pd * 9.81 / 300 / ((R_d + 0.01 * R_v) / (1 + 0.01)) * (1000 - 0) := by
  rw [div_self (by norm_num), Real.one_rpow]
  unfold R_d R_v c_pd kaBoNA M_d M_v M_H M_OH
  norm_num

/-! ### Mixing lengths -/

/-- **C98 (mixing lengths).** The geometric mean does not exceed the arithmetic one and both lie between the smallest and the largest edge; for cubes all mixing lengths are the edge; the cube of the geometric mean is the cell volume;
the vertical length is the vertical edge. -/
theorem sgs_lengths (dx dy dz : ℝ) (hx : 0 < dx) (hy : 0 < dy) (hz : 0 < dz) :
    sgs_geometric3 dx dy dz ^ 3 = dx * dy * dz ∧ sgs_geometric2 dx dz ^ 2 = dx * dz ∧
    sgs_geometric3 dx dy dz ≤ sgs_arithmetic3 dx dy dz ∧ sgs_geometric2 dx dz ≤ sgs_arithmetic2 dx dz ∧
    min dx (min dy dz) ≤ sgs_geometric3 dx dy dz ∧ sgs_arithmetic3 dx dy dz ≤ max dx (max dy dz) ∧
    min dx dz ≤ sgs_geometric2 dx dz ∧ sgs_arithmetic2 dx dz ≤ max dx dz ∧
    sgs_geometric3 dx dx dx = dx ∧ sgs_arithmetic3 dx dx dx = dx ∧ sgs_vertical3 dx dx dx = dx ∧ sgs_geometric2 dx dx = dx ∧ sgs_arithmetic2 dx dx = dx ∧ sgs_vertical2 dx dx = dx ∧
    sgs_geometric1 dx = dx ∧ sgs_arithmetic1 dx = dx ∧ sgs_vertical1 dx = dx ∧ sgs_vertical2 dx dz = dz ∧ sgs_vertical3 dx dy dz = dz := by
  have cb : ∀ x : ℝ, 0 ≤ x → cbrt x ^ 3 = x := by
    intro x h
    unfold cbrt
    rw [← Real.rpow_natCast, ← Real.rpow_mul h]; norm_num
  have cb0 : ∀ x : ℝ, 0 ≤ x → 0 ≤ cbrt x := fun x h => Real.rpow_nonneg h _
  have g3 : sgs_geometric3 dx dy dz ^ 3 = dx * dy * dz := cb _ (by positivity)
  have g0 : 0 ≤ sgs_geometric3 dx dy dz := cb0 _ (by positivity)
  have g2 : sgs_geometric2 dx dz ^ 2 = dx * dz := Real.sq_sqrt (by positivity)
  have g20 : 0 ≤ sgs_geometric2 dx dz := Real.sqrt_nonneg _
  refine ⟨g3, g2, ?_, ?_, ?_, ?_, ?_, ?_, ?_, ?_, rfl, ?_, ?_, rfl, rfl, rfl, rfl, rfl, rfl⟩
  · refine le_of_pow_le_pow_left₀ (n := 3) (by norm_num) (by unfold sgs_arithmetic3; positivity) ?_
    rw [g3]
    unfold sgs_arithmetic3
    nlinarith [mul_nonneg hx.le (sq_nonneg (dy - dz)), mul_nonneg hy.le (sq_nonneg (dx - dz)), mul_nonneg hz.le (sq_nonneg (dx - dy)), mul_nonneg (by positivity : 0 ≤ dx + dy + dz) (add_nonneg (add_nonneg (sq_nonneg (dx - dy)) (sq_nonneg (dy - dz))) (sq_nonneg (dx - dz)))]
  · refine le_of_pow_le_pow_left₀ (n := 2) (by norm_num) (by unfold sgs_arithmetic2; positivity) ?_
    rw [g2]
    unfold sgs_arithmetic2
    nlinarith [sq_nonneg (dx - dz)]
  · refine le_of_pow_le_pow_left₀ (n := 3) (by norm_num) g0 ?_
    rw [g3]
    set m := min dx (min dy dz)
    have m0 : 0 < m := lt_min hx (lt_min hy hz)
    have m1 : m ≤ dx := min_le_left _ _
    have m2 : m ≤ dy := (min_le_right _ _).trans (min_le_left _ _)
    have m3 : m ≤ dz := (min_le_right _ _).trans (min_le_right _ _)
    calc m ^ 3 = m * m * m := by ring
      _ ≤ dx * dy * dz := by gcongr
  · unfold sgs_arithmetic3
    have m1 : dx ≤ max dx (max dy dz) := le_max_left _ _
    have m2 : dy ≤ max dx (max dy dz) := (le_max_left _ _).trans (le_max_right _ _)
    have m3 : dz ≤ max dx (max dy dz) := (le_max_right _ _).trans (le_max_right _ _)
    linarith
  · refine le_of_pow_le_pow_left₀ (n := 2) (by norm_num) g20 ?_
    rw [g2]
    have m0 : 0 < min dx dz := lt_min hx hz
    calc min dx dz ^ 2 = min dx dz * min dx dz := by ring
      _ ≤ dx * dz := by gcongr <;> [exact min_le_left _ _; exact min_le_right _ _]
  · unfold sgs_arithmetic2
    linarith [le_max_left dx dz, le_max_right dx dz]
  · have h3 : sgs_geometric3 dx dx dx ^ 3 = dx ^ 3 := by rw [show sgs_geometric3 dx dx dx ^ 3 = dx * dx * dx from cb _ (by positivity)]; ring
    exact (pow_left_inj₀ (cb0 _ (by positivity)) hx.le (by norm_num)).1 h3
  · unfold sgs_arithmetic3; ring
  · unfold sgs_geometric2; exact Real.sqrt_mul_self hx.le
  · unfold sgs_arithmetic2; ring

end LCP.Common
