import Verif.Vterm.Laws
import Mathlib.Analysis.SpecialFunctions.Sqrt
import Mathlib.Analysis.SpecialFunctions.Log.Deriv
import Mathlib.Analysis.SpecialFunctions.ExpDeriv

/-!
# C74: gravity, exponents and shape in the formula of Khvorostyanov and Curry
-/
namespace LCP.Vterm
noncomputable section
open LCP.Common

/-- **C74** acceleration of gravity in SI units -/
theorem gravity : g = 9.81 := rfl

/-- specification: Abraham's Reynolds number as a function of the Best number -/
def abraham (X : ℝ) : ℝ := 9.06 ^ 2 / 4 * (√(1 + 0.0902 * √X) - 1) ^ 2

/-- **C74** the exponent of the power law is the local slope of Abraham's function in logarithmic coordinates -/
theorem khvB_slope (l : ℝ) : HasDerivAt (fun l => Real.log (abraham (Real.exp l))) (khvB (Real.exp l)) l := by
  have hX : 0 < Real.exp l := Real.exp_pos l
  have hs : 0 < √(Real.exp l) := Real.sqrt_pos.2 hX
  have h1 := sqrt_gt_one _ hX
  have d0 := Real.hasDerivAt_exp l
  have d1 := d0.sqrt hX.ne'
  have d2 := (d1.const_mul 0.0902).const_add 1
  have d3 := d2.sqrt (by positivity)
  have d4 := (d3.sub_const 1)
  have d5 := (d4.pow 2).const_mul (9.06 ^ 2 / 4)
  have hne : (9.06 : ℝ) ^ 2 / 4 * (√(1 + 0.0902 * √(Real.exp l)) - 1) ^ 2 ≠ 0 := by
    have : 0 < √(1 + 0.0902 * √(Real.exp l)) - 1 := by linarith
    positivity
  refine HasDerivAt.congr_deriv (d5.log hne) ?_
  have hq : 0 < √(1 + 0.0902 * √(Real.exp l)) := by linarith
  have hq1 : √(1 + 0.0902 * √(Real.exp l)) - 1 ≠ 0 := by linarith
  have hxx : Real.exp l = √(Real.exp l) * √(Real.exp l) := (Real.mul_self_sqrt hX.le).symm
  unfold khvB
  simp only [Pi.pow_apply]
  set S := √(Real.exp l) with hS
  set Q := √(1 + 0.0902 * S) with hQ
  rw [hxx]
  norm_num
  field_simp
  ring

/-- specification: ratio of the axes of a falling drop of diameter `D` -/
def axisRatio (D : ℝ) : ℝ := Real.exp (-D / 4.7e-3) + (1 - Real.exp (-D / 4.7e-3)) * (1 / (1 + D / 4.7e-3))

/-- **C74 (Khvorostyanov and Curry, both shapes).** As `khvorostyanov_law`; if the drop is not taken as a sphere, the driving term of the power law is multiplied by the ratio of axes
(and by `2.546479 pi / 8`, which is 1 to seven digits). -/
theorem khvorostyanov_shape (c : Air) (hc : c.Ok) (r : ℝ) (hr : 0 < r) :
    let X := davies (2 * r) (1000 - c.rhod) c.rhod c.eta
    reynolds r (khvorostyanov r c.rhod c.eta false) c.rhod c.eta =
      abraham X * (1000 / (1000 - c.rhod) * (2.546479 * Real.pi / 8) * axisRatio (2 * r)) ^ khvB X := by
  intro X
  have hX := bestX_pos c hc r hr
  have hXe : bestX r c.rhod c.eta = X := by
    show _ = davies (2 * r) (1000 - c.rhod) c.rhod c.eta
    unfold bestX davies
    have := hc.rhod; have := hc.eta
    rw [rho_w_eq]; field_simp; ring
  rw [hXe] at hX
  obtain ⟨hT, hT1, hp, hrho, hl, he⟩ := hc
  have hg : 0 < g := by unfold g; norm_num
  have hax : khvKsi r = axisRatio (2 * r) := by
    unfold khvKsi axisRatio
    have h1 : -(2 * r) / 4.7e-3 = -r / 2.35e-3 := by norm_num; ring
    have h2 : 2 * r / 4.7e-3 = r / 2.35e-3 := by norm_num; ring
    rw [h1, h2]; ring
  have hap : 0 < axisRatio (2 * r) := by
    unfold axisRatio
    have h1 := Real.exp_pos (-(2 * r) / 4.7e-3)
    have h2 : Real.exp (-(2 * r) / 4.7e-3) ≤ 1 := by
      rw [Real.exp_le_one_iff]; rw [neg_div, neg_nonpos]; positivity
    have : 0 ≤ (1 - Real.exp (-(2 * r) / 4.7e-3)) * (1 / (1 + 2 * r / 4.7e-3)) := mul_nonneg (by linarith) (by positivity)
    linarith
  have hpi := Real.pi_pos
  unfold khvorostyanov reynolds
  simp only [hXe, Bool.false_eq_true, if_false, rho_w_eq, hax]
  have := cgs (khvA X) (c.eta / c.rhod) (2.546479 * (Real.pi / 6 * 1000 * axisRatio (2 * r)) / c.rhod * g) (2 * r) (khvB X) (by positivity) (by positivity) (by positivity)
  rw [show (2 * 1e2 * r : ℝ) = 1e2 * (2 * r) by ring, this]
  have e1 : 2.546479 * (Real.pi / 6 * 1000 * axisRatio (2 * r)) / c.rhod * g * (2 * r) ^ 3 / (c.eta / c.rhod) ^ 2 =
      1000 / (1000 - c.rhod) * (2.546479 * Real.pi / 8) * axisRatio (2 * r) * X := by
    show _ = _ * davies (2 * r) (1000 - c.rhod) c.rhod c.eta
    unfold davies
    have : 1000 - c.rhod ≠ 0 := by linarith
    field_simp
    ring
  have hpos : 0 ≤ 1000 / (1000 - c.rhod) * (2.546479 * Real.pi / 8) * axisRatio (2 * r) := by
    have : 0 < 1000 - c.rhod := by linarith
    positivity
  rw [e1, Real.mul_rpow hpos hX.le]
  unfold khvA abraham
  have hXp := Real.rpow_pos_of_pos hX (khvB X)
  field_simp

/-- the constant stands for `8 / pi` -/
theorem shape_constant : |2.546479 * Real.pi / 8 - 1| < 1e-6 := by
  have h1 := Real.pi_gt_d6
  have h2 := Real.pi_lt_d6
  rw [abs_lt]; constructor <;> norm_num at h1 h2 ⊢ <;> linarith

/-- hypotheses met: air at 280 K and 900 hPa -/
example : (⟨280, 90000, 1.1, 1.8e-5⟩ : Air).Ok := by constructor <;> norm_num

theorem rho_stp_pos : 0 < rho_stp := by unfold rho_stp p_stp R_d kaBoNA M_d; norm_num

/-- **C74** the density the laws refer to is that of the standard atmosphere at sea level, 1.225 kg/m3 -/
theorem reference_density : |rho_stp - 1.225| < 5e-4 := by unfold rho_stp p_stp R_d kaBoNA M_d; rw [abs_lt]; constructor <;> norm_num

/-- specification: mean free path of air molecules, 66.2 nm at the reference conditions and proportional to viscosity divided by the square root of pressure times density -/
def freePath (p rhoa eta : ℝ) : ℝ := 6.62e-8 * (eta / √(p * rhoa)) / (1.818e-5 / √(101325 * rho_stp))

/-- **C74 (Beard 1977, small drops).** Up to a radius of 20 um the correction is that of the law of Stokes with slip: velocities are inversely proportional to viscosity and
proportional to one plus 2.51 mean free paths per diameter. -/
theorem beard77fact_small (r p rhoa eta : ℝ) (hr : 0 < r) (h : r ≤ 20e-6) (hp : 0 < p) (hrho : 0 < rhoa) (he : 0 < eta) :
    beard77fact r p rhoa eta * (eta * (1 + 2.51 * 6.62e-8 / (2 * r))) = 1.818e-5 * (1 + 2.51 * freePath p rhoa eta / (2 * r)) := by
  have hs : 0 < rho_stp := rho_stp_pos
  have e1 : √(p_stp / p * rho_stp / rhoa) = √(101325 * rho_stp) / √(p * rhoa) := by
    rw [← Real.sqrt_div (by positivity)]; congr 1; unfold p_stp; field_simp
  have h1 : 0 < √(101325 * rho_stp) := Real.sqrt_pos.2 (by positivity)
  have h2 : 0 < √(p * rhoa) := Real.sqrt_pos.2 (by positivity)
  unfold beard77fact freePath
  simp only [if_pos h, e1]
  field_simp
  ring

/-- **C74** such drops fall faster where the pressure is lower and where viscosity is lower -/
theorem beard77fact_small_mono (r p p' rhoa eta eta' : ℝ) (hr : 0 < r) (h : r ≤ 20e-6) (hp : 0 < p) (hp' : p < p') (hrho : 0 < rhoa) (he : 0 < eta) (he' : eta < eta') :
    beard77fact r p' rhoa eta < beard77fact r p rhoa eta ∧ beard77fact r p rhoa eta' < beard77fact r p rhoa eta := by
  have hs : 0 < rho_stp := rho_stp_pos
  have hk : 0 < eta * (1 + 2.51 * 6.62e-8 / (2 * r)) := by positivity
  have hk' : 0 < eta' * (1 + 2.51 * 6.62e-8 / (2 * r)) := by have := he.trans he'; positivity
  have a1 := beard77fact_small r p rhoa eta hr h hp hrho he
  have a2 := beard77fact_small r p' rhoa eta hr h (hp.trans hp') hrho he
  have a3 := beard77fact_small r p rhoa eta' hr h hp hrho (he.trans he')
  constructor
  · have : √(p * rhoa) < √(p' * rhoa) := Real.sqrt_lt_sqrt (by positivity) (by nlinarith)
    have h2 : 0 < √(p * rhoa) := Real.sqrt_pos.2 (by positivity)
    have h3 : freePath p' rhoa eta < freePath p rhoa eta := by
      unfold freePath; gcongr
    have h4 : 2.51 * freePath p' rhoa eta / (2 * r) < 2.51 * freePath p rhoa eta / (2 * r) := by gcongr
    by_contra hc
    push Not at hc
    have := mul_le_mul_of_nonneg_right hc hk.le
    rw [a1, a2] at this
    linarith
  · by_contra hc
    push Not at hc
    have hlin : freePath p rhoa eta' = freePath p rhoa eta * (eta' / eta) := by unfold freePath; field_simp
    have h6 := mul_le_mul_of_nonneg_right hc hk'.le
    have h7 : beard77fact r p rhoa eta * (eta' * (1 + 2.51 * 6.62e-8 / (2 * r))) = 1.818e-5 * (1 + 2.51 * freePath p rhoa eta / (2 * r)) * (eta' / eta) := by
      rw [← a1]; field_simp
    rw [a3, h7, hlin] at h6
    have h8 : 1 < eta' / eta := by rw [lt_div_iff₀ he]; linarith
    have e : 2.51 * (freePath p rhoa eta * (eta' / eta)) / (2 * r) = 2.51 * freePath p rhoa eta / (2 * r) * (eta' / eta) := by ring
    rw [e] at h6
    nlinarith

example : beard77fact 10e-6 60000 1 1.8e-5 < beard77fact 10e-6 50000 1 1.8e-5 :=
  (beard77fact_small_mono 10e-6 50000 60000 1 1.8e-5 1.9e-5 (by norm_num) (by norm_num) (by norm_num) (by norm_num) (by norm_num) (by norm_num) (by norm_num)).1

end
end LCP.Vterm
