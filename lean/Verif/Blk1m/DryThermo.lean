import Verif.Blk1m.TermReal
import Mathlib.Analysis.Convex.SpecificFunctions.Basic
import Mathlib.Analysis.SpecialFunctions.Pow.Real

/-!
# Thermodynamics of the default (dry potential temperature) variant of the RK4 saturation adjustment

Bounds on the temperature, the heating coefficient, the saturation mixing ratio and one Runge-Kutta step, used by `TermDry.lean`
to show that the adjustment ends. Here both the temperature and the pressure change during the adjustment.
-/
namespace LCP.Blk1m
open LCP.Common

theorem R_d_bounds : 287 < R_d ∧ R_d < 287.01 := by
  unfold R_d kaBoNA M_d; constructor <;> norm_num

/-- exponent of the temperature as a function of dry potential temperature, minus one -/
noncomputable abbrev kap : ℝ := R_d / (c_pd - R_d)

theorem kap_bounds : 0 < kap ∧ kap < 0.4 := by
  have h := R_d_bounds
  unfold kap c_pd
  constructor
  · apply div_pos <;> linarith
  · rw [div_lt_iff₀ (by linarith)]; norm_num at *; linarith

theorem kap_exp : c_pd / (c_pd - R_d) = 1 + kap := by
  have h := R_d_bounds
  have : c_pd - R_d ≠ 0 := by unfold c_pd; linarith
  unfold kap; field_simp; ring

/-- temperature as a power of the ratio of potential temperatures -/
theorem Tdry_scale {x rhod t : ℝ} (hx : 0 < x) (hr : 0 < rhod) (ht : 0 < t) :
    Tdry (x * t) rhod = Tdry x rhod * (t * t ^ kap) := by
  unfold Tdry
  have hA : 0 < (rhod * R_d / p_1000) ^ (R_d / c_pd) := Real.rpow_pos_of_pos (div_pos (mul_pos hr R_d_pos) p_1000_pos) _
  rw [show x * t * (rhod * R_d / p_1000) ^ (R_d / c_pd) = (x * (rhod * R_d / p_1000) ^ (R_d / c_pd)) * t by ring,
    Real.mul_rpow (by positivity) ht.le, kap_exp, Real.rpow_add ht, Real.rpow_one]

theorem pow_le {t : ℝ} (ht : 0 < t) : t ^ kap ≤ 1 + kap * (t - 1) := by
  have := rpow_one_add_le_one_add_mul_self (s := t - 1) (p := kap) (by linarith) kap_bounds.1.le (by have := kap_bounds.2; norm_num at *; linarith)
  rwa [show 1 + (t - 1) = t by ring] at this

/-- warming for a given relative increase of potential temperature -/
theorem Tdry_rise {x rhod z : ℝ} (hx : 0 < x) (hr : 0 < rhod) (hz : 0 ≤ z) :
    Tdry (x * (1 + z)) rhod ≤ Tdry x rhod * (1 + 1.4 * z + 0.4 * z ^ 2) := by
  rw [Tdry_scale hx hr (by linarith)]
  apply mul_le_mul_of_nonneg_left _ (Tdry_pos x rhod hx hr).le
  have h := pow_le (t := 1 + z) (by linarith)
  have hk := kap_bounds
  calc (1 + z) * (1 + z) ^ kap ≤ (1 + z) * (1 + kap * (1 + z - 1)) := by gcongr
    _ ≤ (1 + z) * (1 + 0.4 * (1 + z - 1)) := by
        have : kap * (1 + z - 1) ≤ 0.4 * (1 + z - 1) := by
          apply mul_le_mul_of_nonneg_right hk.2.le; linarith
        gcongr
    _ = _ := by ring

theorem Tdry_mono {x y rhod : ℝ} (hx : 0 < x) (hr : 0 < rhod) (h : x ≤ y) : Tdry x rhod ≤ Tdry y rhod := by
  unfold Tdry
  have hA : 0 < (rhod * R_d / p_1000) ^ (R_d / c_pd) := Real.rpow_pos_of_pos (div_pos (mul_pos hr R_d_pos) p_1000_pos) _
  apply Real.rpow_le_rpow (by positivity) (by gcongr)
  rw [kap_exp]; have := kap_bounds.1; linarith

theorem Tdry_inj_le {x y rhod : ℝ} (hy : 0 < y) (hr : 0 < rhod) (h : Tdry x rhod ≤ Tdry y rhod) : x ≤ y := by
  by_contra hc
  push Not at hc
  have hA : 0 < (rhod * R_d / p_1000) ^ (R_d / c_pd) := Real.rpow_pos_of_pos (div_pos (mul_pos hr R_d_pos) p_1000_pos) _
  have : Tdry y rhod < Tdry x rhod := by
    unfold Tdry
    apply Real.rpow_lt_rpow (by positivity) (by gcongr)
    rw [kap_exp]; have := kap_bounds.1; linarith
  linarith

/-- there is a potential temperature for every temperature -/
theorem Tdry_surj {rhod T : ℝ} (hr : 0 < rhod) (hT : 0 < T) : ∃ x, 0 < x ∧ Tdry x rhod = T := by
  have hA : 0 < (rhod * R_d / p_1000) ^ (R_d / c_pd) := Real.rpow_pos_of_pos (div_pos (mul_pos hr R_d_pos) p_1000_pos) _
  have hk := kap_bounds.1
  refine ⟨T ^ ((1 + kap)⁻¹) / (rhod * R_d / p_1000) ^ (R_d / c_pd), by positivity, ?_⟩
  unfold Tdry
  rw [div_mul_cancel₀ _ hA.ne', kap_exp, ← Real.rpow_mul hT.le, inv_mul_cancel₀ (by linarith), Real.rpow_one]

/-! ### the heating coefficient -/

/-- potential temperature gained per unit of vapour condensed -/
noncomputable def heat (rhod x : ℝ) : ℝ := x / Tdry x rhod * l_v (Tdry x rhod) / 1005

theorem heat_eq {rhod x : ℝ} (hx : 0 < x) (hr : 0 < rhod) :
    Tdry x rhod * heat rhod x = x * ((3146842.88 - 2368 * Tdry x rhod) / 1005) := by
  have := Tdry_pos x rhod hx hr
  unfold heat; rw [l_v_eq]; field_simp; ring

/-- slope bound of the tangent of `heat` at `x` -/
noncomputable def slope (rhod x : ℝ) : ℝ := kap * (3146842.88 / 1005) / Tdry x rhod + 2368 / 1005

/-- the heating coefficient lies above its tangents -/
theorem heat_convex {rhod x y : ℝ} (hx : 0 < x) (hy : 0 < y) (hr : 0 < rhod) :
    heat rhod x - slope rhod x * (y - x) ≤ heat rhod y := by
  have hTx := Tdry_pos x rhod hx hr
  obtain ⟨t, ht⟩ : ∃ t, t = y / x := ⟨_, rfl⟩
  have ht0 : 0 < t := by rw [ht]; positivity
  have hyt : y = x * t := by rw [ht]; field_simp
  subst hyt
  have hT := Tdry_scale hx hr ht0
  have hp := pow_le ht0
  obtain ⟨P, hP⟩ : ∃ P, P = t ^ kap := ⟨_, rfl⟩
  have hP0 : 0 < P := by rw [hP]; exact Real.rpow_pos_of_pos ht0 _
  rw [← hP] at hT hp
  obtain ⟨K, hK⟩ : ∃ K, K = Tdry x rhod := ⟨_, rfl⟩
  unfold heat slope
  rw [hT, ← hK, l_v_eq, l_v_eq]
  rw [← hK] at hTx
  have hk := kap_bounds
  obtain ⟨k, hkk⟩ : ∃ k, k = kap := ⟨_, rfl⟩
  rw [← hkk] at hp hk ⊢
  -- 1/P ≥ 1 - k (t-1)
  have h1 : 1 - k * (t - 1) ≤ 1 / P := by
    rw [le_div_iff₀ hP0]
    by_cases hn : 1 - k * (t - 1) ≤ 0
    · have := mul_nonneg (neg_nonneg.2 hn) hP0.le
      linarith
    · push Not at hn
      calc (1 - k * (t - 1)) * P ≤ (1 - k * (t - 1)) * (1 + k * (t - 1)) := by gcongr
        _ ≤ 1 := by nlinarith [sq_nonneg (k * (t - 1))]
  have e1 : x * t / (K * (t * P)) * (2500000 - 2368 * (K * (t * P) - 273.16)) / 1005 =
      x / K * (3146842.88 / 1005) * (1 / P) - 2368 / 1005 * (x * t) := by
    field_simp; ring
  have e2 : x / K * (2500000 - 2368 * (K - 273.16)) / 1005 - (k * (3146842.88 / 1005) / K + 2368 / 1005) * (x * t - x) =
      x / K * (3146842.88 / 1005) * (1 - k * (t - 1)) - 2368 / 1005 * (x * t) := by
    field_simp; ring
  rw [e1, e2]
  have : 0 ≤ x / K * (3146842.88 / 1005) := by positivity
  have := mul_le_mul_of_nonneg_left h1 this
  linarith

theorem slope_pos {rhod x : ℝ} (hx : 0 < x) (hr : 0 < rhod) : 0 < slope rhod x := by
  have := Tdry_pos x rhod hx hr
  have := kap_bounds.1
  unfold slope; positivity

theorem slope_le {rhod x : ℝ} (hT : 250 ≤ Tdry x rhod) : slope rhod x ≤ 7.37 := by
  have hk := kap_bounds
  unfold slope
  have h1 : kap * (3146842.88 / 1005) / Tdry x rhod ≤ 0.4 * (3146842.88 / 1005) / 250 := by
    have := hk.2
    gcongr
  have : (0.4:ℝ) * (3146842.88 / 1005) / 250 + 2368 / 1005 ≤ 7.37 := by norm_num
  linarith

theorem heat_anti {rhod x y : ℝ} (hx : 0 < x) (hxy : x ≤ y) (hr : 0 < rhod) : heat rhod y ≤ heat rhod x := by
  have h := heat_convex (hx.trans_le hxy) hx hr
  have := mul_nonneg (slope_pos (hx.trans_le hxy) hr).le (sub_nonneg.2 hxy)
  linarith

theorem heat_pos {rhod x : ℝ} (hx : 0 < x) (hr : 0 < rhod) (hT : Tdry x rhod ≤ 1300) : 0 < heat rhod x := by
  have h := Tdry_pos x rhod hx hr
  unfold heat
  have : 0 < l_v (Tdry x rhod) := by rw [l_v_eq]; norm_num at *; linarith
  positivity

/-! ### vapour pressure over temperature -/

theorem e_mono {x y : ℝ} (hx : 0 < x) (hxy : x ≤ y) (hy : y ≤ 1000) : p_vs x / x ≤ p_vs y / y := by
  have hd : ∀ T : ℝ, 0 < T → HasDerivAt (fun T => p_vs T / T) ((l_v T / (R_v * T ^ 2) * p_vs T * T - p_vs T * 1) / T ^ 2) T := by
    intro T hT
    exact (clausius_clapeyron T hT).div (hasDerivAt_id T) hT.ne'
  have hm : MonotoneOn (fun T => p_vs T / T) (Set.Icc x 1000) := by
    apply monotoneOn_of_deriv_nonneg (convex_Icc _ _)
    · intro T hT; exact (hd T (hx.trans_le hT.1)).continuousAt.continuousWithinAt
    · intro T hT; rw [interior_Icc] at hT
      exact (hd T (hx.trans hT.1)).differentiableAt.differentiableWithinAt
    · intro T hT; rw [interior_Icc] at hT
      have h0 : 0 < T := hx.trans hT.1
      have h1 := hT.2
      rw [(hd T h0).deriv]
      have hp := p_vs_pos T
      have hv := R_v_pos
      have hb := R_v_bounds.2
      have e : l_v T / (R_v * T ^ 2) * p_vs T * T - p_vs T * 1 = p_vs T * ((l_v T - R_v * T) / (R_v * T)) := by
        field_simp
      rw [e]
      have : 0 ≤ l_v T - R_v * T := by
        rw [l_v_eq]
        have : R_v * T ≤ 462 * T := by gcongr
        norm_num at *; linarith
      positivity
  exact hm ⟨le_refl _, hxy.trans hy⟩ ⟨hxy, hy⟩ hxy

/-- saturation mixing ratio in terms of `e = p_vs / T` and `q = p / T` -/
theorem r_vs_dry {T q : ℝ} (hT : 0 < T) (hq : p_vs T / T < q) :
    0 < r_vs T (q * T) ∧ p_vs T < q * T ∧ (p_vs T / T) * (eps + r_vs T (q * T)) = r_vs T (q * T) * q := by
  have hp : p_vs T < q * T := by rwa [div_lt_iff₀ hT] at hq
  refine ⟨r_vs_pos T _ hp, hp, ?_⟩
  have := r_vs_eq T (q * T) hp
  generalize r_vs T (q * T) = r at *
  field_simp
  linear_combination -this

/-- warming by at most `1900 ε` kelvin and loss of at most a fraction `0.81 ε` of the pressure over temperature: the pressure stays
above the saturation pressure and the saturation mixing ratio rises by at most one and a half tolerances -/
theorem r_vs_rise_dry {x y q q' ε : ℝ} (hx : 250 ≤ x) (hy : 0 < y) (hyx : y ≤ x + 1900 * ε) (hy2 : x + 1900 * ε ≤ 1000)
    (hε0 : 0 < ε) (hε : ε ≤ 1e-4) (hq : p_vs x / x < q) (hqq : q * (1 - 0.81 * ε) ≤ q') (hr : r_vs x (q * x) ≤ 0.008) :
    p_vs y / y < q' ∧ r_vs y (q' * y) ≤ r_vs x (q * x) + 3 / 2 * ε := by
  have he := eps_bounds
  have px := p_vs_pos x
  have hx0 : 0 < x := by linarith
  have ex0 : 0 < p_vs x / x := by positivity
  obtain ⟨hr0, _, hre⟩ := r_vs_dry hx0 hq
  have h1 : p_vs y / y ≤ p_vs x / x * Real.exp (0.0887 * (1900 * ε)) := by
    have h2 := e_mono hy hyx hy2
    have h3 := p_vs_growth hx (show x ≤ x + 1900 * ε by linarith)
    rw [add_sub_cancel_left] at h3
    calc p_vs y / y ≤ p_vs (x + 1900 * ε) / (x + 1900 * ε) := h2
      _ ≤ p_vs (x + 1900 * ε) / x := by
          have := p_vs_pos (x + 1900 * ε)
          apply div_le_div_of_nonneg_left this.le hx0; linarith
      _ ≤ (p_vs x * Real.exp (0.0887 * (1900 * ε))) / x := by gcongr
      _ = _ := by ring
  obtain ⟨z, hz⟩ : ∃ z, z = 0.0887 * (1900 * ε) := ⟨_, rfl⟩
  rw [← hz] at h1
  have hz0 : 0 ≤ z := by rw [hz]; positivity
  have hz1 : z ≤ 0.01686 := by rw [hz]; norm_num at *; linarith
  have hE : Real.exp z ≤ 1 + 1.017 * z := by
    have := Real.abs_exp_sub_one_sub_id_le (x := z) (by rw [abs_of_nonneg hz0]; linarith)
    have := (abs_le.1 this).2
    nlinarith
  have hE2 : Real.exp z ≤ (1 + 173 * ε) * (1 - 0.81 * ε) := by
    refine hE.trans ?_
    rw [hz]; norm_num at *; nlinarith
  obtain ⟨e, hee⟩ : ∃ e, e = p_vs x / x := ⟨_, rfl⟩
  obtain ⟨r, hrr⟩ : ∃ r, r = r_vs x (q * x) := ⟨_, rfl⟩
  rw [← hee] at h1 ex0 hq hre
  rw [← hrr] at hr hr0 hre ⊢
  obtain ⟨w, hw⟩ : ∃ w, w = 173 * ε := ⟨_, rfl⟩
  rw [← hw] at hE2
  have hw0 : 0 < w := by rw [hw]; positivity
  have hw1 : w ≤ 0.0173 := by rw [hw]; norm_num at *; linarith
  have hq0 : 0 < q := ex0.trans hq
  have h081 : 0 < 1 - 0.81 * ε := by norm_num at *; linarith
  -- e' ≤ e (1 + w) q' / q
  have h2 : p_vs y / y * q ≤ e * (1 + w) * q' := by
    calc p_vs y / y * q ≤ e * Real.exp z * q := by gcongr
      _ ≤ e * ((1 + w) * (1 - 0.81 * ε)) * q := by gcongr
      _ = e * (1 + w) * (q * (1 - 0.81 * ε)) := by ring
      _ ≤ _ := by gcongr
  have hq'0 : 0 < q' := lt_of_lt_of_le (by positivity) hqq
  have hsmall : e * 70 ≤ q := by
    have : e * 0.62 ≤ 0.008 * q := by
      calc e * 0.62 ≤ e * (eps + r) := by gcongr; linarith
        _ = r * q := hre
        _ ≤ _ := by gcongr
    linarith
  have hfirst : p_vs y / y < q' := by
    have : p_vs y / y * q < q' * q := by
      calc p_vs y / y * q ≤ e * (1 + w) * q' := h2
        _ ≤ e * 2 * q' := by gcongr; linarith
        _ < q * q' := by
            apply mul_lt_mul_of_pos_right _ hq'0; linarith
        _ = _ := by ring
    exact lt_of_mul_lt_mul_right this hq0.le
  refine ⟨hfirst, ?_⟩
  obtain ⟨hr'0, _, hre'⟩ := r_vs_dry hy hfirst
  obtain ⟨r', hr'⟩ : ∃ r', r' = r_vs y (q' * y) := ⟨_, rfl⟩
  rw [← hr'] at hr'0 hre' ⊢
  obtain ⟨e', he'⟩ : ∃ e', e' = p_vs y / y := ⟨_, rfl⟩
  rw [← he'] at h2 hre'
  have hb : r' * (eps + r) ≤ r * (1 + w) * (eps + r') := by
    have hqq' : 0 < q * q' := by positivity
    have h3 : e' * q * ((eps + r') * (eps + r)) ≤ e * (1 + w) * q' * ((eps + r') * (eps + r)) := by
      apply mul_le_mul_of_nonneg_right h2
      apply mul_nonneg <;> linarith
    have h4 : e' * q * ((eps + r') * (eps + r)) = q * q' * (r' * (eps + r)) := by linear_combination q * (eps + r) * hre'
    have h5 : e * (1 + w) * q' * ((eps + r') * (eps + r)) = q * q' * (r * (1 + w) * (eps + r')) := by
      linear_combination (1 + w) * q' * (eps + r') * hre
    rw [h4, h5] at h3
    exact le_of_mul_le_mul_left h3 hqq'
  have hc : (r' - r) * (eps - w * r) ≤ w * r * (eps + r) := by nlinarith
  by_contra hcon
  push Not at hcon
  have hd : 3 / 2 * ε < r' - r := by linarith
  have hwr : w * r ≤ 0.0002 := by
    calc w * r ≤ 0.0173 * 0.008 := by gcongr
      _ ≤ _ := by norm_num
  have h6 : 3 / 2 * ε * 0.6198 < (r' - r) * (eps - w * r) := by
    have : 0.6198 < eps - w * r := by norm_num at *; linarith
    have hpos : 0 < r' - r := lt_of_le_of_lt (by positivity) hd
    calc 3 / 2 * ε * 0.6198 ≤ (r' - r) * 0.6198 := by gcongr
      _ < _ := by gcongr
  have h7 : w * r * (eps + r) ≤ 173 * ε * 0.008 * 0.638 := by
    rw [hw]
    have : eps + r ≤ 0.638 := by norm_num at *; linarith
    have h0 : 0 ≤ eps + r := by linarith
    gcongr
  have : 173 * ε * 0.008 * 0.638 ≤ 3 / 2 * ε * 0.6198 := by norm_num; nlinarith
  linarith

/-! ### the Runge-Kutta step -/

theorem F_dry (o : Opts) (hc : o.const_p = false) (hd : o.th_dry = true) (rhod p x rv : ℝ) :
    (thermo o rhod p).F x rv = -heat rhod x := by
  unfold thermo Tp heat
  simp only [hc, hd, Bool.not_false, Bool.and_self, if_true]
  unfold d_th_d_rv c_pd; ring

theorem rs_dry (o : Opts) (hc : o.const_p = false) (hd : o.th_dry = true) (rhod p x rv : ℝ) :
    (thermo o rhod p).rs x rv = r_vs (Tdry x rhod) (rhod * (R_d + rv * R_v) * Tdry x rhod) := by
  unfold thermo Tp
  simp only [hc, hd, Bool.not_false, Bool.and_self, if_true]
  rfl

/-- relative heating per unit of vapour, in kelvin -/
theorem heat_K {rhod x : ℝ} (hx : 0 < x) (hr : 0 < rhod) (hT : 250 ≤ Tdry x rhod) :
    Tdry x rhod * heat rhod x ≤ 2542.2 * x := by
  rw [heat_eq hx hr]
  have : (3146842.88 - 2368 * Tdry x rhod) / 1005 ≤ 2542.2 := by
    rw [div_le_iff₀ (by norm_num)]; norm_num at *; linarith
  nlinarith

/-- warming when the potential temperature goes up by `a` -/
theorem Tdry_add {rhod x a b : ℝ} (hx : 0 < x) (hr : 0 < rhod) (ha : 0 ≤ a) (hab : Tdry x rhod * a ≤ b * x)
    (hs : a ≤ 0.01 * x) : Tdry (x + a) rhod ≤ Tdry x rhod + 1.404 * b := by
  have hT := Tdry_pos x rhod hx hr
  have h := Tdry_rise hx hr (z := a / x) (by positivity)
  rw [show x * (1 + a / x) = x + a by field_simp] at h
  have h1 : a / x ≤ 0.01 := by rw [div_le_iff₀ hx]; exact hs
  have h2 : Tdry x rhod * (a / x) ≤ b := by rw [← mul_div_assoc, div_le_iff₀ hx]; exact hab
  have h0 : 0 ≤ a / x := by positivity
  generalize a / x = z at *
  have h3 : 0 ≤ Tdry x rhod * z := by positivity
  calc Tdry (x + a) rhod ≤ _ := h
    _ = Tdry x rhod + (Tdry x rhod * z) * (1.4 + 0.4 * z) := by ring
    _ ≤ Tdry x rhod + (Tdry x rhod * z) * 1.404 := by gcongr; norm_num at *; linarith
    _ ≤ _ := by linarith

/-- an evaporation step -/
theorem rk4_evap (o : Opts) (hc : o.const_p = false) (hd : o.th_dry = true) (rhod p : ℝ) (hr : 0 < rhod) (th rv d θ : ℝ)
    (hθ : 0 < θ) (hTθ : Tdry θ rhod = 250) (hd0 : 0 ≤ d) (hd1 : d ≤ 0.004) (hth : θ + heat rhod θ * d ≤ th)
    (hT : Tdry th rhod ≤ 1000) (th' th4 : ℝ) (h' : (rk4 (thermo o rhod p).F th rv d).1 = th')
    (h4 : (rk4 (thermo o rhod p).F th rv d).2 = th4) :
    th - heat rhod θ * d ≤ th' ∧ th - heat rhod θ * d ≤ th4 ∧ th' ≤ th ∧ th4 ≤ th ∧ Tdry th' rhod ≤ Tdry th4 rhod + 0.0011 := by
  obtain ⟨H, hH⟩ : ∃ H, H = heat rhod θ := ⟨_, rfl⟩
  rw [← hH] at hth ⊢
  have hH0 : 0 < H := by rw [hH]; exact heat_pos hθ hr (by rw [hTθ]; norm_num)
  have up : ∀ x, θ ≤ x → heat rhod x ≤ H := fun x hx => by rw [hH]; exact heat_anti hθ hx hr
  have lo : ∀ x, θ ≤ x → x ≤ th → 0 < heat rhod x := fun x h1 h2 =>
    heat_pos (hθ.trans_le h1) hr (by have := Tdry_mono (hθ.trans_le h1) hr h2; linarith)
  have hHd : 0 ≤ H * d := by positivity
  unfold rk4 at h' h4
  simp only [F_dry o hc hd] at h' h4
  obtain ⟨G1, hG1⟩ : ∃ G, G = heat rhod th := ⟨_, rfl⟩
  rw [← hG1] at h' h4
  have hθth : θ ≤ th := by linarith
  have u1 : G1 ≤ H := by rw [hG1]; exact up _ hθth
  have l1 : 0 < G1 := by rw [hG1]; exact lo _ hθth le_rfl
  obtain ⟨x2, hx2⟩ : ∃ x, x = th + d / 2 * -G1 := ⟨_, rfl⟩
  rw [← hx2] at h' h4
  have d1 : 0 ≤ d * G1 := by positivity
  have d1' : d * G1 ≤ H * d := by rw [mul_comm]; gcongr
  have b2 : θ ≤ x2 := by rw [hx2]; linarith
  have c2 : x2 ≤ th := by rw [hx2]; linarith
  obtain ⟨G2, hG2⟩ : ∃ G, G = heat rhod x2 := ⟨_, rfl⟩
  rw [← hG2] at h' h4
  have u2 : G2 ≤ H := by rw [hG2]; exact up _ b2
  have m12 : G1 ≤ G2 := by rw [hG1, hG2]; exact heat_anti (by linarith) c2 hr
  obtain ⟨x3, hx3⟩ : ∃ x, x = th + d / 2 * -G2 := ⟨_, rfl⟩
  rw [← hx3] at h' h4
  have d2 : d * G1 ≤ d * G2 := by gcongr
  have d2' : d * G2 ≤ H * d := by rw [mul_comm]; gcongr
  have b3 : θ ≤ x3 := by rw [hx3]; linarith
  have c3 : x3 ≤ x2 := by rw [hx3, hx2]; linarith
  obtain ⟨G3, hG3⟩ : ∃ G, G = heat rhod x3 := ⟨_, rfl⟩
  rw [← hG3] at h' h4
  have u3 : G3 ≤ H := by rw [hG3]; exact up _ b3
  have m23 : G2 ≤ G3 := by rw [hG2, hG3]; exact heat_anti (by linarith) c3 hr
  have e4 : th4 = th + d * -G3 := h4.symm
  rw [← e4] at h'
  have d3 : d * G2 ≤ d * G3 := by gcongr
  have d3' : d * G3 ≤ H * d := by rw [mul_comm]; gcongr
  have b4 : θ ≤ th4 := by rw [e4]; linarith
  have c4 : th4 ≤ x3 := by rw [e4, hx3]; linarith
  obtain ⟨G4, hG4⟩ : ∃ G, G = heat rhod th4 := ⟨_, rfl⟩
  rw [← hG4] at h'
  have u4 : G4 ≤ H := by rw [hG4]; exact up _ b4
  have m34 : G3 ≤ G4 := by rw [hG3, hG4]; exact heat_anti (by linarith) c4 hr
  have d4 : d * G3 ≤ d * G4 := by gcongr
  have d4' : d * G4 ≤ H * d := by rw [mul_comm]; gcongr
  have e' : th' = th - (d * G1 / 6 + d * G2 / 3 + d * G3 / 3 + d * G4 / 6) := by rw [← h']; ring
  refine ⟨by linarith, by linarith, by linarith, by linarith, ?_⟩
  -- the lag
  have hT4 : 250 ≤ Tdry th4 rhod := by rw [← hTθ]; exact Tdry_mono hθ hr b4
  have hT3 : 250 ≤ Tdry x3 rhod := by rw [← hTθ]; exact Tdry_mono hθ hr b3
  have hT2 : 250 ≤ Tdry x2 rhod := by rw [← hTθ]; exact Tdry_mono hθ hr b2
  have p3 : 0 < x3 := by linarith
  have p2 : 0 < x2 := by linarith
  have p4 : 0 < th4 := by linarith
  have p1 : 0 < th := by linarith
  have s3 := slope_le hT3
  have s2 := slope_le hT2
  have s30 := slope_pos p3 hr
  have s20 := slope_pos p2 hr
  have t31 := heat_convex (y := th) p3 p1 hr
  have t34 := heat_convex (y := th4) p3 p4 hr
  have t32 := heat_convex (y := x2) p3 p2 hr
  have t21 := heat_convex (y := th) p2 p1 hr
  rw [← hG3, ← hG1] at t31
  rw [← hG3, ← hG4] at t34
  rw [← hG3, ← hG2] at t32
  rw [← hG2, ← hG1] at t21
  generalize slope rhod x3 = M3 at *
  generalize slope rhod x2 = M2 at *
  have q1 : 0 ≤ M3 * (d * (G3 - G2)) := mul_nonneg s30.le (mul_nonneg hd0 (by linarith))
  have r1 : 0 ≤ G1 - 2 * G3 + G4 := by
    have : M3 * (th - x3) + M3 * (th4 - x3) = -(M3 * (d * (G3 - G2))) := by rw [hx3, e4]; ring
    linarith
  have r2 : G2 - G1 ≤ 7.37 * (d / 2 * G1) := by
    have : M2 * (th - x2) ≤ 7.37 * (th - x2) := by gcongr
    have e : th - x2 = d / 2 * G1 := by rw [hx2]; ring
    rw [e] at this t21
    linarith
  have r3 : G3 - G2 ≤ 7.37 * (d / 2 * (G2 - G1)) := by
    have : M3 * (x2 - x3) ≤ 7.37 * (x2 - x3) := by gcongr
    have e : x2 - x3 = d / 2 * (G2 - G1) := by rw [hx2, hx3]; ring
    rw [e] at this t32
    linarith
  have r4 : G3 - G2 ≤ 7.37 ^ 2 * d ^ 2 / 4 * G1 := by
    have : d / 2 * (G2 - G1) ≤ d / 2 * (7.37 * (d / 2 * G1)) := by gcongr
    nlinarith
  have lag : th' - th4 ≤ 7.37 ^ 2 * d ^ 3 / 12 * G4 := by
    have e : th' - th4 = d / 6 * (2 * (G3 - G2) - (G1 - 2 * G3 + G4)) := by rw [e', e4]; ring
    calc th' - th4 = d / 6 * (2 * (G3 - G2) - (G1 - 2 * G3 + G4)) := e
      _ ≤ d / 6 * (2 * (7.37 ^ 2 * d ^ 2 / 4 * G1)) := by gcongr; linarith
      _ = 7.37 ^ 2 * d ^ 3 / 12 * G1 := by ring
      _ ≤ _ := by gcongr; linarith
  have hd3 : 7.37 ^ 2 * d ^ 3 / 12 ≤ 2.9e-7 := by
    calc 7.37 ^ 2 * d ^ 3 / 12 ≤ 7.37 ^ 2 * 0.004 ^ 3 / 12 := by gcongr
      _ ≤ _ := by norm_num
  have hd30 : 0 ≤ 7.37 ^ 2 * d ^ 3 / 12 := by positivity
  have hG40 : 0 < G4 := by linarith
  have lag2 : th' - th4 ≤ 2.9e-7 * G4 := lag.trans (by gcongr)
  have hk := heat_K p4 hr hT4
  rw [← hG4] at hk
  have big : th' ≤ th4 + 2.9e-7 * G4 := by linarith
  have p' : 0 < th' := by linarith
  have hT40 : 0 < Tdry th4 rhod := by linarith
  refine (Tdry_mono p' hr big).trans ((Tdry_add (b := 2.9e-7 * 2542.2) p4 hr (by positivity) ?_ ?_).trans ?_)
  · calc Tdry th4 rhod * (2.9e-7 * G4) = 2.9e-7 * (Tdry th4 rhod * G4) := by ring
      _ ≤ 2.9e-7 * (2542.2 * th4) := by gcongr
      _ = _ := by ring
  · have h1 : 250 * G4 ≤ 2542.2 * th4 := le_trans (by gcongr) hk
    clear * - h1 p4
    norm_num at *; linarith
  · norm_num

/-- a condensation step of size `h` -/
theorem rk4_cond (o : Opts) (hc : o.const_p = false) (hd : o.th_dry = true) (rhod p : ℝ) (hr : 0 < rhod) (th rv h θ : ℝ)
    (hθ : 0 < θ) (hTθ : Tdry θ rhod = 250) (hth : θ ≤ th) (hT : Tdry th rhod ≤ 700) (hh0 : 0 ≤ h) (hh1 : h ≤ 5e-5)
    (th' th4 : ℝ) (h' : (rk4 (thermo o rhod p).F th rv (-h)).1 = th') (h4 : (rk4 (thermo o rhod p).F th rv (-h)).2 = th4) :
    th ≤ th' ∧ th ≤ th4 ∧ th' ≤ th + h * heat rhod θ ∧ Tdry th' rhod ≤ Tdry th rhod + 3570 * h ∧
      Tdry th4 rhod ≤ Tdry th rhod + 3570 * h ∧ Tdry th' rhod ≤ Tdry th4 rhod + 220 * h := by
  have p1 : 0 < th := by linarith
  have hT1 : 250 ≤ Tdry th rhod := by rw [← hTθ]; exact Tdry_mono hθ hr hth
  obtain ⟨G1, hG1⟩ : ∃ G, G = heat rhod th := ⟨_, rfl⟩
  have l1 : 0 < G1 := by rw [hG1]; exact heat_pos p1 hr (by linarith)
  have hk := heat_K p1 hr hT1
  rw [← hG1] at hk
  have hGth : G1 ≤ 10.2 * th := by
    have : 250 * G1 ≤ 2542.2 * th := le_trans (by gcongr) hk
    norm_num at *; linarith
  -- anything between th and th + h G1
  have near : ∀ x, th ≤ x → x ≤ th + h * G1 → Tdry x rhod ≤ Tdry th rhod + 3570 * h := by
    intro x hx hx2
    refine (Tdry_mono (by linarith) hr hx2).trans ((Tdry_add (b := h * 2542.2) p1 hr (by positivity) ?_ ?_).trans ?_)
    · calc Tdry th rhod * (h * G1) = h * (Tdry th rhod * G1) := by ring
        _ ≤ h * (2542.2 * th) := by gcongr
        _ = _ := by ring
    · calc h * G1 ≤ 5e-5 * (10.2 * th) := by gcongr
        _ ≤ _ := by norm_num; linarith
    · norm_num at *; linarith
  have pos : ∀ x, th ≤ x → x ≤ th + h * G1 → 0 < heat rhod x := by
    intro x hx hx2
    exact heat_pos (by linarith) hr (by have := near x hx hx2; norm_num at *; linarith)
  have up : ∀ x, th ≤ x → heat rhod x ≤ G1 := fun x hx => by rw [hG1]; exact heat_anti p1 hx hr
  have hG1H : G1 ≤ heat rhod θ := by rw [hG1]; exact heat_anti hθ hth hr
  unfold rk4 at h' h4
  simp only [F_dry o hc hd, ← hG1] at h' h4
  obtain ⟨x2, hx2⟩ : ∃ x, x = th + -h / 2 * -G1 := ⟨_, rfl⟩
  rw [← hx2] at h' h4
  have d1 : 0 ≤ h * G1 := by positivity
  have b2 : th ≤ x2 := by rw [hx2]; linarith
  have c2 : x2 ≤ th + h * G1 := by rw [hx2]; linarith
  obtain ⟨G2, hG2⟩ : ∃ G, G = heat rhod x2 := ⟨_, rfl⟩
  have l2 := pos _ b2 c2
  have u2 := up _ b2
  rw [← hG2] at h' h4 l2 u2
  obtain ⟨x3, hx3⟩ : ∃ x, x = th + -h / 2 * -G2 := ⟨_, rfl⟩
  rw [← hx3] at h' h4
  have d2 : 0 ≤ h * G2 := by positivity
  have d2' : h * G2 ≤ h * G1 := by gcongr
  have b3 : th ≤ x3 := by rw [hx3]; linarith
  have c3 : x3 ≤ x2 := by rw [hx3, hx2]; linarith
  obtain ⟨G3, hG3⟩ : ∃ G, G = heat rhod x3 := ⟨_, rfl⟩
  have u3 := up _ b3
  have m23 : G2 ≤ heat rhod x3 := by rw [hG2]; exact heat_anti (by linarith) c3 hr
  rw [← hG3] at h' h4 u3 m23
  have e4 : th4 = th + -h * -G3 := h4.symm
  rw [← e4] at h'
  have d3 : h * G2 ≤ h * G3 := by gcongr
  have d3' : h * G3 ≤ h * G1 := by gcongr
  have b4 : th ≤ th4 := by rw [e4]; linarith
  have c4 : th4 ≤ th + h * G1 := by rw [e4]; linarith
  have b34 : x3 ≤ th4 := by rw [e4, hx3]; linarith
  obtain ⟨G4, hG4⟩ : ∃ G, G = heat rhod th4 := ⟨_, rfl⟩
  have l4 := pos _ b4 c4
  have m34 : heat rhod th4 ≤ G3 := by rw [hG3]; exact heat_anti (by linarith) b34 hr
  rw [← hG4] at h' l4 m34
  have d4 : 0 ≤ h * G4 := by positivity
  have d4' : h * G4 ≤ h * G3 := by gcongr
  have e' : th' = th + (h * G1 / 6 + h * G2 / 3 + h * G3 / 3 + h * G4 / 6) := by rw [← h']; ring
  have bt : th ≤ th' := by linarith
  have ct : th' ≤ th + h * G1 := by linarith
  have p4 : 0 < th4 := by linarith
  have p3 : 0 < x3 := by linarith
  refine ⟨bt, b4, ct.trans (by gcongr), near _ bt ct, near _ b4 c4, ?_⟩
  -- the lag
  have t13 := heat_convex (y := x3) p1 p3 hr
  have s1 := slope_le hT1
  rw [← hG1, ← hG3] at t13
  generalize slope rhod th = M1 at *
  have r1 : G1 - G3 ≤ 7.37 * (h / 2 * G1) := by
    have : M1 * (x3 - th) ≤ 7.37 * (x3 - th) := by gcongr
    have e : x3 - th = h / 2 * G2 := by rw [hx3]; ring
    rw [e] at this t13
    have : h / 2 * G2 ≤ h / 2 * G1 := by gcongr
    linarith
  have lag : th' - th4 ≤ 5e-5 * h * G1 := by
    have e : th' - th4 = h / 6 * ((G1 - G3) + 2 * (G2 - G3) + (G4 - G3)) := by rw [e', e4]; ring
    calc th' - th4 = _ := e
      _ ≤ h / 6 * (7.37 * (h / 2 * G1)) := by gcongr; linarith
      _ = 7.37 / 12 * (h * (h * G1)) := by ring
      _ ≤ 7.37 / 12 * (5e-5 * (h * G1)) := by gcongr
      _ ≤ _ := by norm_num; linarith
  have hT4 : 250 ≤ Tdry th4 rhod := hT1.trans (Tdry_mono p1 hr b4)
  have hT4u : Tdry th4 rhod ≤ 750 := by have := near _ b4 c4; norm_num at *; linarith
  have big : th' ≤ th4 + 5e-5 * h * G1 := by linarith
  have h0 : 0 ≤ 5e-5 * h * G1 := by positivity
  refine (Tdry_mono (by linarith) hr big).trans ((Tdry_add (b := h * 0.5) p4 hr h0 ?_ ?_).trans ?_)
  · calc Tdry th4 rhod * (5e-5 * h * G1) ≤ 750 * (5e-5 * h * (10.2 * th)) := by gcongr
      _ ≤ 750 * (5e-5 * h * (10.2 * th4)) := by gcongr
      _ ≤ h * 0.5 * th4 := by have : 0 ≤ h * th4 := by positivity
                              norm_num; nlinarith
  · calc 5e-5 * h * G1 ≤ 5e-5 * 5e-5 * (10.2 * th) := by gcongr
      _ ≤ _ := by norm_num; linarith
  · norm_num; linarith

end LCP.Blk1m
