import Verif.Common.Tpr
import Verif.Common.Props
import Mathlib.Analysis.SpecialFunctions.Log.Deriv
import Mathlib.Analysis.SpecialFunctions.ExpDeriv
import Mathlib.Analysis.Calculus.Deriv.MeanValue
import Mathlib.Analysis.Complex.ExponentialBounds

/-!
# C137: the options for relative humidity describe the same air

Sources: include/libcloudph++/common/{tetens,const_cp}.hpp, src/impl/housekeeping/particles_impl_hskpng_Tpr.ipp (modelled in Common/Tpr.lean and Common/Model.lean).
-/
namespace LCP.Common

/-- logarithm of the ratio of `a exp(b (T - 273.15) / (T - c))` to the Clausius-Clapeyron saturation pressure, up to a constant -/
noncomputable def gap (b c T : ℝ) : ℝ :=
  b * (T - 273.15) / (T - c) - ((l_tri + (c_pw - c_pv) * T_tri) / R_v * (1 / T_tri - 1 / T) - (c_pw - c_pv) / R_v * Real.log (T / T_tri))

/-- derivative of `gap` -/
noncomputable def gap' (b c T : ℝ) : ℝ := b * (273.15 - c) / (T - c) ^ 2 - (l_tri + (c_pw - c_pv) * T_tri - (c_pw - c_pv) * T) / (R_v * T ^ 2)

theorem gap_deriv (b c T : ℝ) (hT : 0 < T) (hc : T - c ≠ 0) : HasDerivAt (gap b c) (gap' b c T) T := by
  have hR := R_v_pos.ne'
  have h1 : HasDerivAt (fun T : ℝ => b * (T - 273.15) / (T - c)) ((b * 1 * (T - c) - b * (T - 273.15) * 1) / (T - c) ^ 2) T :=
    (((hasDerivAt_id T).sub_const 273.15).const_mul b).div ((hasDerivAt_id T).sub_const c) hc
  have h2 : HasDerivAt (fun T : ℝ => 1 / T_tri - 1 / T) (1 / T ^ 2) T := by
    have h := (hasDerivAt_inv hT.ne').const_sub (1 / T_tri)
    simpa [one_div] using h
  have h3 : HasDerivAt (fun T : ℝ => Real.log (T / T_tri)) (1 / T) T := by
    have h := ((hasDerivAt_id T).div_const T_tri).log (by have := T_tri_pos; simp only [id]; positivity)
    have e : 1 / T_tri / (id T / T_tri) = 1 / T := by have := T_tri_pos.ne'; simp only [id]; field_simp
    rw [e] at h; exact h
  have h := h1.sub ((h2.const_mul ((l_tri + (c_pw - c_pv) * T_tri) / R_v)).sub (h3.const_mul ((c_pw - c_pv) / R_v)))
  refine h.congr_deriv ?_
  unfold gap'
  have := hT.ne'
  field_simp
  ring

theorem diff_ge (k m n x y : ℝ) (hx : 0 < x) (hy : 0 < y) (h : (k * y + n) * x ≤ m * y) : k ≤ m / x - n / y := by
  rw [div_sub_div _ _ hx.ne' hy.ne', le_div_iff₀ (by positivity)]
  nlinarith

theorem diff_le (k m n x y : ℝ) (hx : 0 < x) (hy : 0 < y) (h : m * y ≤ (k * y + n) * x) : m / x - n / y ≤ k := by
  rw [div_sub_div _ _ hx.ne' hy.ne', div_le_iff₀ (by positivity)]
  nlinarith

/-- both Tetens formulae: the ratio to the Clausius-Clapeyron pressure increases from 0 to 40 °C, by 0.1 to 0.25 per mille per kelvin -/
theorem gap'_bounds (b c T : ℝ) (h : (b = 17.27 ∧ c = 35.85) ∨ (b = 17.2693882 ∧ c = 35.86)) (h0 : 273.15 ≤ T) (h1 : T ≤ 313.15) :
    1e-4 ≤ gap' b c T ∧ gap' b c T ≤ 2.5e-4 := by
  unfold gap' l_tri c_pw c_pv T_tri R_v kaBoNA M_v M_H M_OH
  obtain ⟨s, rfl⟩ : ∃ s, T = 273.15 + s := ⟨T - 273.15, by ring⟩
  have s0 : 0 ≤ s := by linarith
  have s1 : 0 ≤ 40 - s := by linarith
  have p0 : 0 ≤ (40 - s) ^ 4 := by positivity
  have p1 : 0 ≤ s * (40 - s) ^ 3 := by positivity
  have p2 : 0 ≤ s ^ 2 * (40 - s) ^ 2 := by positivity
  have p3 : 0 ≤ s ^ 3 * (40 - s) := by positivity
  have p4 : 0 ≤ s ^ 4 := by positivity
  have hT : (0 : ℝ) < 273.15 + s := by linarith
  have hc : 0 < 273.15 + s - c := by rcases h with ⟨-, rfl⟩ | ⟨-, rfl⟩ <;> linarith
  constructor
  · refine diff_ge _ _ _ _ _ (by positivity) (by positivity) ?_
    rcases h with ⟨rfl, rfl⟩ | ⟨rfl, rfl⟩ <;> (norm_num; nlinarith)
  · refine diff_le _ _ _ _ _ (by positivity) (by positivity) ?_
    rcases h with ⟨rfl, rfl⟩ | ⟨rfl, rfl⟩ <;> (norm_num; nlinarith)

/-- between two temperatures the gap grows by 0.1 to 0.25 per mille per kelvin -/
theorem gap_grows (b c S T : ℝ) (h : (b = 17.27 ∧ c = 35.85) ∨ (b = 17.2693882 ∧ c = 35.86)) (h0 : 273.15 ≤ S) (hST : S ≤ T) (h1 : T ≤ 313.15) :
    1e-4 * (T - S) ≤ gap b c T - gap b c S ∧ gap b c T - gap b c S ≤ 2.5e-4 * (T - S) := by
  have hc : c ≤ 36 := by rcases h with ⟨-, rfl⟩ | ⟨-, rfl⟩ <;> norm_num
  rcases hST.eq_or_lt with rfl | hlt
  · simp
  have hd : ∀ x, S ≤ x → x ≤ T → HasDerivAt (gap b c) (gap' b c x) x := fun x h2 h3 => gap_deriv b c x (by linarith) (by intro e; linarith)
  obtain ⟨x, hx, e⟩ := exists_hasDerivAt_eq_slope (gap b c) (gap' b c) hlt (fun x hx => (hd x hx.1 hx.2).continuousAt.continuousWithinAt)
    fun x hx => hd x hx.1.le hx.2.le
  obtain ⟨g1, g2⟩ := gap'_bounds b c x h (h0.trans hx.1.le) (hx.2.le.trans h1)
  have hp : 0 < T - S := by linarith
  rw [e] at g1 g2
  rw [le_div_iff₀ hp] at g1
  rw [div_le_iff₀ hp] at g2
  exact ⟨g1, g2⟩

/-- saturation pressure behind the Tetens formula for the mixing ratio: `380/(p exp(-x) - 610.9) = 380/610.9 e/(p - e)` with this `e` -/
noncomputable def tetE (T : ℝ) : ℝ := 610.9 * Real.exp (17.2693882 * (T - 273.15) / (T - 35.86))

theorem ratio_gap (a b c T : ℝ) (ha : 0 < a) : a * Real.exp (b * (T - 273.15) / (T - c)) = a / p_tri * Real.exp (gap b c T) * p_vs T := by
  have := p_tri_pos
  unfold p_vs gap
  rw [Real.exp_sub]
  have h := (Real.exp_pos ((l_tri + (c_pw - c_pv) * T_tri) / R_v * (1 / T_tri - 1 / T) - (c_pw - c_pv) / R_v * Real.log (T / T_tri))).ne'
  field_simp

theorem gap_tri (b c : ℝ) (h : (b = 17.27 ∧ c = 35.85) ∨ (b = 17.2693882 ∧ c = 35.86)) : 7.2e-4 ≤ gap b c 273.16 ∧ gap b c 273.16 ≤ 7.3e-4 := by
  have e : gap b c 273.16 = b * 0.01 / (273.16 - c) := by unfold gap T_tri; norm_num
  rw [e]
  rcases h with ⟨rfl, rfl⟩ | ⟨rfl, rfl⟩ <;> norm_num

theorem exp_small (x : ℝ) (h0 : 0 ≤ x) (h1 : x ≤ 1 / 10) : 1 + x ≤ Real.exp x ∧ Real.exp x ≤ 1 + x + x ^ 2 := by
  refine ⟨by linarith [Real.add_one_le_exp x], ?_⟩
  have h := Real.abs_exp_sub_one_sub_id_le (x := x) (by rw [abs_of_nonneg h0]; linarith)
  linarith [(abs_le.mp h).2]

/-- bounds of the ratio of either Tetens pressure to the Clausius-Clapeyron one -/
theorem ratio_bounds (a b c T : ℝ) (ha : 610.78 ≤ a ∧ a ≤ 610.9) (h : (b = 17.27 ∧ c = 35.85) ∨ (b = 17.2693882 ∧ c = 35.86)) (h0 : 273.16 ≤ T) (h1 : T ≤ 313.15) :
    (0.999 + 1e-4 * (T - 273.16) * 0.998) * p_vs T ≤ a * Real.exp (b * (T - 273.15) / (T - c)) ∧ a * Real.exp (b * (T - 273.15) / (T - c)) ≤ 1.0096 * p_vs T := by
  obtain ⟨g1, g2⟩ := gap_grows b c 273.16 T h (by norm_num) h0 h1
  obtain ⟨t1, t2⟩ := gap_tri b c h
  have hp := p_vs_pos T
  have ha0 : 0 < a := by linarith
  rw [ratio_gap a b c T ha0]
  have x0 : 7.2e-4 + 1e-4 * (T - 273.16) ≤ gap b c T := by linarith
  have x1 : gap b c T ≤ 1.08e-2 := by linarith
  obtain ⟨e1, e2⟩ := exp_small (gap b c T) (by linarith) (by linarith)
  have e3 : Real.exp (gap b c T) ≤ 1.01092 := by nlinarith
  have e4 : 1.00072 + 1e-4 * (T - 273.16) ≤ Real.exp (gap b c T) := by linarith
  have a1 : 0.9984 ≤ a / p_tri := by unfold p_tri; rw [le_div_iff₀ (by norm_num)]; linarith
  have a2 : a / p_tri ≤ 0.99865 := by unfold p_tri; rw [div_le_iff₀ (by norm_num)]; linarith
  have hs : 0 ≤ T - 273.16 := by linarith
  constructor
  · refine mul_le_mul_of_nonneg_right ?_ hp.le
    have := mul_le_mul a1 e4 (by positivity) (by linarith : (0 : ℝ) ≤ a / p_tri)
    nlinarith
  · refine mul_le_mul_of_nonneg_right ?_ hp.le
    have := mul_le_mul a2 e3 (Real.exp_pos _).le (by norm_num : (0 : ℝ) ≤ 0.99865)
    linarith

/-! ### Properties -/

/-- **C137 (vapour pressure).** From 0.01 to 40 °C the Tetens saturation pressure is between one per mille below and one per cent above the
Clausius-Clapeyron one, and so are the humidities -/
theorem tetens_pressure (p rv T : ℝ) (hp : 0 < p) (hr : 0 ≤ rv) (h0 : 273.16 ≤ T) (h1 : T ≤ 313.15) :
    (0.999 * p_vs T ≤ tet_p_vs T ∧ tet_p_vs T ≤ 1.01 * p_vs T) ∧
    0.99 * RHof .pv_cc p rv T ≤ RHof .pv_tet p rv T ∧ RHof .pv_tet p rv T ≤ 1.0011 * RHof .pv_cc p rv T := by
  obtain ⟨a1, a2⟩ := ratio_bounds 610.78 17.27 35.85 T (by norm_num) (Or.inl ⟨rfl, rfl⟩) h0 h1
  have e : 610.78 * Real.exp (17.27 * (T - 273.15) / (T - 35.85)) = tet_p_vs T := by
    unfold tet_p_vs
    rw [show T - 273.15 + 237.3 = T - 35.85 by ring, show (6.1078e2 : ℝ) = 610.78 by norm_num]
  rw [e] at a1 a2
  have hv := p_vs_pos T
  have b1 : 0.999 * p_vs T ≤ tet_p_vs T := le_trans (by nlinarith) a1
  have ht : 0 < tet_p_vs T := by linarith [mul_pos (by norm_num : (0 : ℝ) < 0.999) hv]
  have hpv : 0 ≤ p_v p rv := by unfold p_v; have := eps_pos; positivity
  refine ⟨⟨b1, by linarith⟩, ?_, ?_⟩
  · unfold RHof
    rw [le_div_iff₀ ht, mul_div_assoc', div_mul_eq_mul_div, div_le_iff₀ hv]
    nlinarith [mul_nonneg hpv hv.le]
  · unfold RHof
    rw [mul_div_assoc', div_le_div_iff₀ ht hv]
    nlinarith [mul_nonneg hpv hv.le]

/-- **C137 (the warmer, the larger the difference).** Air which is saturated according to the Clausius-Clapeyron option is dry by at least one per mille per 10
kelvin less one per mille according to the Tetens option: at 40 °C by 0.29 per cent, more than the supersaturation of most clouds -/
theorem tetens_drier (p rv T : ℝ) (h0 : 273.16 ≤ T) (h1 : T ≤ 313.15) (hs : RHof .pv_cc p rv T = 1) :
    RHof .pv_tet p rv T ≤ 1 / (0.999 + 0.998e-4 * (T - 273.16)) := by
  obtain ⟨a1, -⟩ := ratio_bounds 610.78 17.27 35.85 T (by norm_num) (Or.inl ⟨rfl, rfl⟩) h0 h1
  have e : 610.78 * Real.exp (17.27 * (T - 273.15) / (T - 35.85)) = tet_p_vs T := by
    unfold tet_p_vs
    rw [show T - 273.15 + 237.3 = T - 35.85 by ring, show (6.1078e2 : ℝ) = 610.78 by norm_num]
  rw [e] at a1
  have hv := p_vs_pos T
  have hq : 0 < 0.999 + 0.998e-4 * (T - 273.16) := by linarith
  have hpv : p_v p rv = p_vs T := by unfold RHof at hs; simpa [div_eq_one_iff_eq hv.ne'] using hs
  show p_v p rv / tet_p_vs T ≤ _
  rw [hpv, div_le_div_iff₀ (by nlinarith) hq]
  nlinarith

/-- **C137 (mixing ratio).** In the same range and at pressures at least six times the saturation pressure, the Tetens saturation mixing ratio is between half a per
mille below and 1.3 per cent above the Clausius-Clapeyron one, and so are the humidities -/
theorem tetens_mixing_ratio (p rv T : ℝ) (hr : 0 ≤ rv) (h0 : 273.16 ≤ T) (h1 : T ≤ 313.15) (hp : 6 * p_vs T ≤ p) :
    (0.9995 * r_vs T p ≤ tet_r_vs T p ∧ tet_r_vs T p ≤ 1.013 * r_vs T p) ∧
    0.987 * RHof .rv_cc p rv T ≤ RHof .rv_tet p rv T ∧ RHof .rv_tet p rv T ≤ 1.0006 * RHof .rv_cc p rv T := by
  obtain ⟨a1, a2⟩ := ratio_bounds 610.9 17.2693882 35.86 T (by norm_num) (Or.inr ⟨rfl, rfl⟩) h0 h1
  have hv := p_vs_pos T
  have he := eps_pos
  have e : tet_r_vs T p = 380 / 610.9 * (610.9 * Real.exp (17.2693882 * (T - 273.15) / (T - 35.86))) / (p - 610.9 * Real.exp (17.2693882 * (T - 273.15) / (T - 35.86))) := by
    unfold tet_r_vs
    have hx := Real.exp_pos (17.2693882 * (T - 273.15) / (T - 35.86))
    rw [show -17.2693882 * (T - 273.15) / (T - 35.86) = -(17.2693882 * (T - 273.15) / (T - 35.86)) by ring, Real.exp_neg]
    generalize Real.exp (17.2693882 * (T - 273.15) / (T - 35.86)) = x at *
    have : p * x⁻¹ - 610.9 = (p - 610.9 * x) / x := by field_simp
    rw [this, div_div_eq_mul_div]
    norm_num
    ring
  have e' : r_vs T p = eps * p_vs T / (p - p_vs T) := by
    unfold r_vs
    rw [div_sub_one hv.ne', div_div_eq_mul_div]
  have b1 : 0.999 * p_vs T ≤ 610.9 * Real.exp (17.2693882 * (T - 273.15) / (T - 35.86)) := le_trans (by nlinarith) a1
  rw [e, e']
  generalize 610.9 * Real.exp (17.2693882 * (T - 273.15) / (T - 35.86)) = E at *
  have q1 : 0 < p - E := by linarith
  have q2 : 0 < p - p_vs T := by linarith
  have hE : 0 < E := by linarith [mul_pos (by norm_num : (0 : ℝ) < 0.999) hv]
  have v1 : 0.62133 ≤ eps ∧ eps ≤ 0.62134 := by
    unfold eps M_v M_d M_H M_OH; constructor <;> norm_num
  obtain ⟨v1, v2⟩ := v1
  have k1 : 0.9995 * (eps * p_vs T / (p - p_vs T)) ≤ 380 / 610.9 * E / (p - E) := by
    have m : E / (p - E) ≥ 0.999 * p_vs T / (p - 0.999 * p_vs T) := by
      rw [ge_iff_le, div_le_div_iff₀ (by linarith) q1]
      nlinarith
    have m2 : 0.9995 * (eps * p_vs T / (p - p_vs T)) ≤ 380 / 610.9 * (0.999 * p_vs T / (p - 0.999 * p_vs T)) := by
      have w : 0.9995 * (0.62134 * p_vs T / (p - p_vs T)) ≤ 380 / 610.9 * (0.999 * p_vs T / (p - 0.999 * p_vs T)) := by
        rw [mul_div_assoc', mul_div_assoc', div_le_div_iff₀ q2 (by linarith)]
        nlinarith [mul_nonneg hv.le (by linarith : 0 ≤ p - 6 * p_vs T), mul_pos hv hv]
      refine le_trans ?_ w
      gcongr
    rw [mul_div_assoc (380 / 610.9) E]
    exact m2.trans (mul_le_mul_of_nonneg_left m (by norm_num))
  have k2 : 380 / 610.9 * E / (p - E) ≤ 1.013 * (eps * p_vs T / (p - p_vs T)) := by
    have m : E / (p - E) ≤ 1.0096 * p_vs T / (p - 1.0096 * p_vs T) := by
      rw [div_le_div_iff₀ q1 (by linarith)]
      nlinarith
    have m2 : 380 / 610.9 * (1.0096 * p_vs T / (p - 1.0096 * p_vs T)) ≤ 1.013 * (eps * p_vs T / (p - p_vs T)) := by
      have w : 380 / 610.9 * (1.0096 * p_vs T / (p - 1.0096 * p_vs T)) ≤ 1.013 * (0.62133 * p_vs T / (p - p_vs T)) := by
        rw [mul_div_assoc', mul_div_assoc', div_le_div_iff₀ (by linarith) q2]
        nlinarith [mul_nonneg hv.le (by linarith : 0 ≤ p - 6 * p_vs T), mul_pos hv hv]
      refine w.trans ?_
      gcongr
    rw [mul_div_assoc (380 / 610.9) E]
    exact (mul_le_mul_of_nonneg_left m (by norm_num)).trans m2
  refine ⟨⟨k1, k2⟩, ?_, ?_⟩
  · show 0.987 * (rv / r_vs T p) ≤ rv / tet_r_vs T p
    rw [e, e']
    have t0 : 0 < 380 / 610.9 * E / (p - E) := by positivity
    have c0 : 0 < eps * p_vs T / (p - p_vs T) := by positivity
    generalize 380 / 610.9 * E / (p - E) = t at *
    generalize eps * p_vs T / (p - p_vs T) = c at *
    rw [mul_div_assoc', div_le_div_iff₀ c0 t0]
    nlinarith [mul_nonneg hr c0.le, mul_le_mul_of_nonneg_left k2 hr]
  · show rv / tet_r_vs T p ≤ 1.0006 * (rv / r_vs T p)
    rw [e, e']
    have t0 : 0 < 380 / 610.9 * E / (p - E) := by positivity
    have c0 : 0 < eps * p_vs T / (p - p_vs T) := by positivity
    generalize 380 / 610.9 * E / (p - E) = t at *
    generalize eps * p_vs T / (p - p_vs T) = c at *
    rw [mul_div_assoc', div_le_div_iff₀ t0 c0]
    nlinarith [mul_nonneg hr c0.le, mul_le_mul_of_nonneg_left k1 hr]

/-- **C137 (temperature).** The temperature the particles see is the one the potential temperature was made of: with `th_dry` from dry potential temperature
and density (definition with the partial pressure of dry air `rhod R_d T`), otherwise from the standard potential temperature and the pressure -/
theorem temperature_of_theta (o : TprOpts) (T rhod p : ℝ) (hT : 0 < T) (hr : 0 < rhod) (hp : 0 < p) :
    TofCell o (if o.th_dry then T * (p_1000 / (rhod * R_d * T)) ^ (R_d / c_pd) else T * (p_1000 / p) ^ (R_d / c_pd)) rhod p = T := by
  have h1 := p_1000_pos
  have h2 := R_d_pos
  unfold TofCell
  by_cases h : o.th_dry = true
  · rw [if_pos h, if_pos h]
    exact ((Tdry_spec _ rhod T (by positivity) hr hT).mp rfl).symm
  · rw [if_neg h, if_neg h]
    unfold exner
    rw [mul_assoc, ← Real.mul_rpow (by positivity) (by positivity), div_mul_div_cancel₀ hp.ne', div_self h1.ne', Real.one_rpow, mul_one]

/-- **C137 (pressure).** The pressure is the given one, or that of the mixture of dry air and vapour as ideal gases -/
theorem pressure_of_gases (o : TprOpts) (rhod rv T p : ℝ) : pOfCell o rhod rv T p = if o.const_p then p else rhod * R_d * T + rhod * rv * R_v * T := by
  unfold pOfCell pDry
  split_ifs
  · rfl
  · ring

-- warm cloud: 20 °C, 900 hPa; the hypotheses hold
example : (273.16 : ℝ) ≤ 293.15 ∧ (293.15 : ℝ) ≤ 313.15 ∧ 6 * p_vs 293.15 ≤ 90000 := by
  have h := (tetens_pressure 90000 0 293.15 (by norm_num) le_rfl (by norm_num) (by norm_num)).1.1
  refine ⟨by norm_num, by norm_num, ?_⟩
  have e : tet_p_vs 293.15 ≤ 14000 := by
    unfold tet_p_vs
    have h1 : (17.27 : ℝ) * (293.15 - 273.15) / (293.15 - 273.15 + 237.3) ≤ 3 := by norm_num
    have h2 : Real.exp 3 ≤ 20.2 := by
      have := Real.exp_one_lt_d9
      have h3 : Real.exp 3 = Real.exp 1 ^ 3 := by rw [← Real.exp_nat_mul]; norm_num
      rw [h3]
      calc Real.exp 1 ^ 3 ≤ 2.7182818286 ^ 3 := by gcongr
        _ ≤ 20.2 := by norm_num
    have := Real.exp_le_exp.mpr h1
    linarith
  linarith

end LCP.Common
