import Verif.Blk1m.Termination
import Mathlib.Analysis.Calculus.Deriv.MeanValue
import Mathlib.Analysis.SpecialFunctions.ExpDeriv
import Mathlib.Analysis.Complex.ExponentialBounds

/-!
# The RK4 saturation adjustment ends for moderately moist air at constant pressure (C101)

Discharges the hypotheses of `rk_terminates_partial` for the thermodynamics of the code (constant-pressure variant) from conditions
on the initial cell alone.
-/
namespace LCP.Blk1m
open LCP.Common

theorem l_v_eq (T : ℝ) : l_v T = 2500000 - 2368 * (T - 273.16) := by
  unfold l_v l_tri c_pv c_pw T_tri; norm_num; ring

theorem R_v_bounds : 461.9 < R_v ∧ R_v < 462 := by
  unfold R_v kaBoNA M_v M_H M_OH; constructor <;> norm_num

theorem eps_bounds : 0.62 < eps ∧ eps < 0.63 := by
  unfold eps M_v M_H M_OH M_d; constructor <;> norm_num

/-- the saturation pressure increases up to 1300 K -/
theorem p_vs_mono {x y : ℝ} (hx : 0 < x) (hxy : x ≤ y) (hy : y ≤ 1300) : p_vs x ≤ p_vs y := by
  have hm : MonotoneOn p_vs (Set.Icc x 1300) := by
    apply monotoneOn_of_deriv_nonneg (convex_Icc _ _)
    · intro T hT; exact (clausius_clapeyron T (hx.trans_le hT.1)).continuousAt.continuousWithinAt
    · intro T hT; rw [interior_Icc] at hT
      exact (clausius_clapeyron T (hx.trans hT.1)).differentiableAt.differentiableWithinAt
    · intro T hT; rw [interior_Icc] at hT
      have h0 : 0 < T := hx.trans hT.1
      rw [(clausius_clapeyron T h0).deriv]
      have := p_vs_pos T
      have hv := R_v_pos
      have : 0 ≤ l_v T := by rw [l_v_eq]; have := hT.2; norm_num at *; linarith
      positivity
  exact hm ⟨le_refl _, hxy.trans hy⟩ ⟨hxy, hy⟩ hxy

/-- above 250 K the saturation pressure grows by less than 8.87 % per kelvin -/
theorem p_vs_growth {x y : ℝ} (hx : 250 ≤ x) (hxy : x ≤ y) : p_vs y ≤ p_vs x * Real.exp (0.0887 * (y - x)) := by
  have hd : ∀ T : ℝ, 0 < T → HasDerivAt (fun T => p_vs T * Real.exp (-0.0887 * T))
      (l_v T / (R_v * T ^ 2) * p_vs T * Real.exp (-0.0887 * T) + p_vs T * (Real.exp (-0.0887 * T) * (-0.0887 * 1))) T := by
    intro T hT
    exact (clausius_clapeyron T hT).mul (((hasDerivAt_id T).const_mul (-0.0887)).exp)
  have ha : AntitoneOn (fun T => p_vs T * Real.exp (-0.0887 * T)) (Set.Ici x) := by
    apply antitoneOn_of_deriv_nonpos (convex_Ici _)
    · intro T hT; exact (hd T (by have : x ≤ T := hT; linarith)).continuousAt.continuousWithinAt
    · intro T hT; rw [interior_Ici] at hT
      exact (hd T (by have : x < T := hT; linarith)).differentiableAt.differentiableWithinAt
    · intro T hT; rw [interior_Ici] at hT
      have hT' : x < T := hT
      have h0 : 0 < T := by linarith
      rw [(hd T h0).deriv]
      have hp := p_vs_pos T
      have he := Real.exp_pos (-0.0887 * T)
      have hv := R_v_bounds.1
      have hv0 := R_v_pos
      have hk : l_v T / (R_v * T ^ 2) ≤ 0.0887 := by
        rw [div_le_iff₀ (by positivity), l_v_eq]
        have h2 : 250 ^ 2 + 500 * (T - 250) ≤ T ^ 2 := by nlinarith [sq_nonneg (T - 250)]
        have h3 : 461.9 * T ^ 2 ≤ R_v * T ^ 2 := by gcongr
        norm_num at *
        nlinarith
      have : l_v T / (R_v * T ^ 2) * p_vs T * Real.exp (-0.0887 * T) + p_vs T * (Real.exp (-0.0887 * T) * (-0.0887 * 1)) =
          (l_v T / (R_v * T ^ 2) - 0.0887) * (p_vs T * Real.exp (-0.0887 * T)) := by ring
      rw [this]
      exact mul_nonpos_of_nonpos_of_nonneg (by linarith) (by positivity)
  have h := ha (Set.mem_Ici.2 (le_refl x)) (Set.mem_Ici.2 hxy) hxy
  simp only at h
  have e : Real.exp (0.0887 * (y - x)) = Real.exp (-0.0887 * x) * Real.exp (0.0887 * y) := by
    rw [← Real.exp_add]; congr 1; ring
  have e1 : Real.exp (-0.0887 * y) * Real.exp (0.0887 * y) = 1 := by
    rw [← Real.exp_add]; norm_num
  calc p_vs y = p_vs y * Real.exp (-0.0887 * y) * Real.exp (0.0887 * y) := by rw [mul_assoc, e1, mul_one]
    _ ≤ p_vs x * Real.exp (-0.0887 * x) * Real.exp (0.0887 * y) := by
        have := Real.exp_pos (0.0887 * y); gcongr
    _ = _ := by rw [e]; ring

/-- r_vs in terms of the vapour pressure -/
theorem r_vs_eq (T p : ℝ) (hp : p_vs T < p) : r_vs T p * (p - p_vs T) = eps * p_vs T := by
  have h1 := p_vs_pos T
  have h2 : p / p_vs T - 1 ≠ 0 := by have : 1 < p / p_vs T := by rw [one_lt_div h1]; exact hp
                                     linarith
  unfold r_vs
  rw [div_mul_eq_mul_div, div_eq_iff h2]
  field_simp

/-- a warming by at most `δ` kelvin of a cell whose saturation mixing ratio is at most 10 g/kg: the pressure stays above the
saturation pressure, and the saturation mixing ratio rises by at most 1.03 g/kg per kelvin -/
theorem r_vs_rise {x y p δ : ℝ} (hx : 250 ≤ x) (hy : 0 < y) (hyx : y ≤ x + δ) (hy2 : x + δ ≤ 1300) (hδ0 : 0 ≤ δ) (hδ : δ ≤ 1.3)
    (hp : p_vs x < p) (hr : r_vs x p ≤ 0.01) :
    p_vs y < p ∧ r_vs y p ≤ r_vs x p + 0.00103 * δ := by
  have he := eps_bounds
  have px := p_vs_pos x
  have py := p_vs_pos y
  have rx0 : 0 < r_vs x p := r_vs_pos x p hp
  have h1 : p_vs y ≤ p_vs x * Real.exp (0.0887 * δ) := by
    have h2 := p_vs_mono hy hyx hy2
    have h3 := p_vs_growth hx (show x ≤ x + δ by linarith)
    rw [add_sub_cancel_left] at h3
    linarith
  set z := 0.0887 * δ with hz
  have hz0 : 0 ≤ z := by positivity
  have hz1 : z ≤ 0.1154 := by rw [hz]; norm_num at *; linarith
  have hq : Real.exp z ≤ 1 + 1.1154 * z := by
    have := Real.abs_exp_sub_one_sub_id_le (x := z) (by rw [abs_of_nonneg hz0]; linarith)
    have := (abs_le.1 this).2
    nlinarith
  have h2 : p_vs y ≤ p_vs x * (1 + 1.1154 * z) := h1.trans (by gcongr)
  -- p_vs x = r p / (eps + r)
  have ex := r_vs_eq x p hp
  set r := r_vs x p with hrdef
  have hpe : p_vs x * (eps + r) = r * p := by linear_combination -ex
  have hp0 : 0 < p := px.trans hp
  have hfirst : p_vs y < p := by
    have : p_vs x * 62 ≤ p := by
      have : p_vs x * 0.62 ≤ 0.01 * p := by nlinarith
      linarith
    have hzz : p_vs x * (1 + 1.1154 * z) ≤ p_vs x * 2 := by
      apply mul_le_mul_of_nonneg_left _ px.le; linarith
    linarith
  refine ⟨hfirst, ?_⟩
  have ey := r_vs_eq y p hfirst
  set r' := r_vs y p with hr'
  have hr'0 : 0 < r' := r_vs_pos y p hfirst
  -- r' (p - py) = eps py
  have hpe' : p_vs y * (eps + r') = r' * p := by linear_combination -ey
  set w := 1.1154 * z with hw
  have hw0 : 0 ≤ w := by positivity
  have hw1 : w ≤ 0.1288 := by rw [hw]; linarith
  have hwd : w ≤ 0.09894 * δ := by rw [hw, hz]; linarith
  -- cross-multiplied: r' (eps - w r) ≤ eps (1+w) r
  have hb : r' * (eps + r) ≤ r * (1 + w) * (eps + r') := by
    have h3 : p_vs y * ((eps + r') * (eps + r)) ≤ p_vs x * (1 + w) * ((eps + r') * (eps + r)) := by
      apply mul_le_mul_of_nonneg_right h2; nlinarith
    have h4 : p_vs y * ((eps + r') * (eps + r)) = p * (r' * (eps + r)) := by linear_combination (eps + r) * hpe'
    have h5 : p_vs x * (1 + w) * ((eps + r') * (eps + r)) = p * (r * (1 + w) * (eps + r')) := by linear_combination (1 + w) * (eps + r') * hpe
    rw [h4, h5] at h3
    exact le_of_mul_le_mul_left h3 hp0
  -- (r' - r)(eps - w r) ≤ w r (eps + r)
  have hc : (r' - r) * (eps - w * r) ≤ w * r * (eps + r) := by nlinarith
  by_contra hcon
  push Not at hcon
  have hd : 0.00103 * δ < r' - r := by linarith
  have hwr : w * r ≤ 0.001288 := by
    calc w * r ≤ 0.1288 * 0.01 := by gcongr
      _ = _ := by norm_num
  have h6 : 0.00103 * δ * 0.6187 < (r' - r) * (eps - w * r) := by
    have : 0.6187 < eps - w * r := by linarith
    have hpos : 0 < r' - r := lt_of_le_of_lt (by positivity) hd
    calc 0.00103 * δ * 0.6187 ≤ (r' - r) * 0.6187 := by gcongr
      _ < _ := by gcongr
  have h7 : w * r * (eps + r) ≤ 0.09894 * δ * 0.01 * 0.64 := by
    have : eps + r ≤ 0.64 := by linarith
    have h0 : 0 ≤ eps + r := by linarith
    gcongr
  have : 0.09894 * δ * 0.01 * 0.64 ≤ 0.00103 * δ * 0.6187 := by nlinarith
  linarith

/-! ### the Runge-Kutta step in terms of temperature -/

/-- slope of the heating coefficient with temperature: (c_pw - c_pv) / c_pd -/
noncomputable abbrev cc : ℝ := 2368 / 1005

/-- `rk4` for the constant-pressure variant: temperature after the step and temperature of the last evaluation -/
theorem rk4_T (o : Opts) (hc : o.const_p = true) (hd : o.th_dry = false) (rhod p : ℝ) (hp : 0 < p) (th rv d K g : ℝ)
    (hK : th * exner p = K) (hg : g = l_v K / 1005)
    (h1 : K ≠ 0) (h2 : K - d / 2 * g ≠ 0) (h3 : K - d / 2 * (g * (1 + cc * d / 2)) ≠ 0)
    (h4 : K - d * (g * (1 + cc * d / 2 + (cc * d) ^ 2 / 4)) ≠ 0) :
    (rk4 (thermo o rhod p).F th rv d).1 * exner p = K - d * g * (1 + cc * d / 2 + (cc * d) ^ 2 / 6 + (cc * d) ^ 3 / 24) ∧
    (rk4 (thermo o rhod p).F th rv d).2 * exner p = K - d * g * (1 + cc * d / 2 + (cc * d) ^ 2 / 4) := by
  have hx : 0 < exner p := Real.rpow_pos_of_pos (div_pos hp (by norm_num [p_1000])) _
  have hF : ∀ (th' rv' K' : ℝ), th' * exner p = K' → K' ≠ 0 → (thermo o rhod p).F th' rv' = -(l_v K' / 1005) / exner p := by
    intro th' rv' K' h hne
    unfold thermo Tp
    simp only [hc, hd, Bool.not_true, Bool.false_eq_true, if_false, Bool.not_false, Bool.and_self, if_true]
    rw [h]
    have e : th' = K' / exner p := by rw [eq_div_iff hx.ne', h]
    rw [e]
    unfold d_th_d_rv c_pd
    field_simp
  have lin : ∀ K' : ℝ, l_v K' / 1005 = g - cc * (K' - K) := by
    intro K'; rw [hg, l_v_eq, l_v_eq]; ring
  unfold rk4
  simp only
  have k1 : (thermo o rhod p).F th rv = -g / exner p := by rw [hF th rv K hK h1, hg]
  rw [k1]
  have k2 : (thermo o rhod p).F (th + d / 2 * (-g / exner p)) (rv + d / 2) = -(g * (1 + cc * d / 2)) / exner p := by
    rw [hF _ _ (K - d / 2 * g) (by rw [add_mul, hK]; field_simp; ring) h2, lin]; congr 1; ring
  rw [k2]
  have k3 : (thermo o rhod p).F (th + d / 2 * (-(g * (1 + cc * d / 2)) / exner p)) (rv + d / 2) =
      -(g * (1 + cc * d / 2 + (cc * d) ^ 2 / 4)) / exner p := by
    rw [hF _ _ (K - d / 2 * (g * (1 + cc * d / 2))) (by rw [add_mul, hK]; field_simp; ring) h3, lin]; congr 1; ring
  rw [k3]
  have k4 : (thermo o rhod p).F (th + d * (-(g * (1 + cc * d / 2 + (cc * d) ^ 2 / 4)) / exner p)) (rv + d) =
      -(g * (1 + cc * d + (cc * d) ^ 2 / 2 + (cc * d) ^ 3 / 4)) / exner p := by
    rw [hF _ _ (K - d * (g * (1 + cc * d / 2 + (cc * d) ^ 2 / 4))) (by rw [add_mul, hK]; field_simp; ring) h4, lin]; congr 1; ring
  rw [k4]
  constructor
  · have : th = K / exner p := by rw [eq_div_iff hx.ne', hK]
    rw [this]; field_simp; ring
  · rw [add_mul, hK]; field_simp; ring

/-- bounds of the two temperatures for a step of at most 10 g/kg from a temperature between 250 and 1100 K -/
theorem rk4_bounds (o : Opts) (hc : o.const_p = true) (hd : o.th_dry = false) (rhod p : ℝ) (hp : 0 < p) (th rv d K : ℝ)
    (hK : th * exner p = K) (hK1 : 250 ≤ K) (hK2 : K ≤ 1100) (hd1 : -0.01 ≤ d) (hd2 : d ≤ 0.01) :
    ∃ K' Kh', (rk4 (thermo o rhod p).F th rv d).1 * exner p = K' ∧ (rk4 (thermo o rhod p).F th rv d).2 * exner p = Kh' ∧
      |K' - Kh'| ≤ 0.0012 ∧
      (0 ≤ d → K - 2575 * d ≤ K' ∧ K - 2575 * d ≤ Kh' ∧ K' ≤ K ∧ Kh' ≤ K) ∧
      (d ≤ 0 → K' ≤ K - 2575 * d ∧ Kh' ≤ K - 2575 * d ∧ K ≤ K' ∧ K ≤ Kh') := by
  obtain ⟨g, hg⟩ : ∃ g, g = l_v K / 1005 := ⟨_, rfl⟩
  have hg0 : 0 < g := by rw [hg, l_v_eq]; apply div_pos _ (by norm_num); norm_num at *; linarith
  have hg1 : g ≤ 2543 := by rw [hg, l_v_eq, div_le_iff₀ (by norm_num)]; norm_num at *; linarith
  obtain ⟨a, ha⟩ : ∃ a, a = cc * d := ⟨_, rfl⟩
  have ha1 : -0.02357 ≤ a := by rw [ha]; unfold cc; norm_num at *; linarith
  have ha2 : a ≤ 0.02357 := by rw [ha]; unfold cc; norm_num at *; linarith
  -- the polynomial factors
  have a2 : a ^ 2 ≤ 0.000556 := by nlinarith
  have a20 : 0 ≤ a ^ 2 := sq_nonneg a
  have a3u : a ^ 3 ≤ 0.0000132 := by
    have : a ^ 3 = a * a ^ 2 := by ring
    rw [this]; nlinarith
  have a3l : -0.0000132 ≤ a ^ 3 := by
    have : a ^ 3 = a * a ^ 2 := by ring
    rw [this]; nlinarith
  obtain ⟨P, hP⟩ : ∃ P, P = 1 + a / 2 + a ^ 2 / 6 + a ^ 3 / 24 := ⟨_, rfl⟩
  obtain ⟨Q, hQ⟩ : ∃ Q, Q = 1 + a / 2 + a ^ 2 / 4 := ⟨_, rfl⟩
  have P1 : P ≤ 1.0125 := by rw [hP]; norm_num at *; linarith
  have P0 : 0 < P := by rw [hP]; norm_num at *; linarith
  have Q1 : Q ≤ 1.0125 := by rw [hQ]; norm_num at *; linarith
  have Q0 : 0 < Q := by rw [hQ]; norm_num at *; linarith
  have gP : g * P ≤ 2575 := by nlinarith
  have gQ : g * Q ≤ 2575 := by nlinarith
  have gP0 : 0 < g * P := by positivity
  have gQ0 : 0 < g * Q := by positivity
  -- stages
  have stage : ∀ m : ℝ, 0 ≤ m → m ≤ 2600 → K - d * m ≠ 0 := by
    intro m h0 h1
    have : d * m ≤ 0.01 * 2600 := by
      rcases le_total 0 d with h | h
      · gcongr
      · have : d * m ≤ 0 := mul_nonpos_of_nonpos_of_nonneg h h0
        norm_num; linarith
    norm_num at this
    have : 0 < K - d * m := by linarith
    exact this.ne'
  obtain ⟨e1, e2⟩ := rk4_T o hc hd rhod p hp th rv d K g hK hg (by linarith)
    (by have := stage (g / 2) (by positivity) (by linarith); rw [show d / 2 * g = d * (g / 2) by ring]; exact this)
    (by
      have h : 0 ≤ g * (1 + a / 2) := mul_nonneg hg0.le (by linarith)
      have h' : g * (1 + a / 2) ≤ 2543 * 1.02 := by
        apply mul_le_mul hg1 (by linarith) (by linarith) (by norm_num)
      have := stage (g * (1 + a / 2) / 2) (by positivity) (by norm_num at h'; linarith)
      rw [ha] at this
      rw [show d / 2 * (g * (1 + cc * d / 2)) = d * (g * (1 + cc * d / 2) / 2) by ring]; exact this)
    (by
      have := stage (g * Q) gQ0.le (by linarith)
      rw [hQ, ha] at this; exact this)
  rw [← ha] at e1 e2
  rw [← hP, mul_assoc] at e1
  rw [← hQ, mul_assoc] at e2
  refine ⟨_, _, e1, e2, ?_, ?_, ?_⟩
  · have e : (K - d * (g * P)) - (K - d * (g * Q)) = d * g * (a ^ 2 / 12 - a ^ 3 / 24) := by rw [hP, hQ]; ring
    rw [e, abs_mul, abs_mul, abs_of_pos hg0]
    have h1 : |d| ≤ 0.01 := abs_le.2 ⟨hd1, hd2⟩
    have h2 : |a ^ 2 / 12 - a ^ 3 / 24| ≤ 0.000047 := by rw [abs_le]; constructor <;> norm_num at * <;> linarith
    calc |d| * g * |a ^ 2 / 12 - a ^ 3 / 24| ≤ 0.01 * 2543 * 0.000047 := by gcongr
      _ ≤ 0.0012 := by norm_num
  · intro h
    have x1 : d * (g * P) ≤ d * 2575 := by gcongr
    have x2 : d * (g * Q) ≤ d * 2575 := by gcongr
    have x3 : 0 ≤ d * (g * P) := by positivity
    have x4 : 0 ≤ d * (g * Q) := by positivity
    refine ⟨?_, ?_, ?_, ?_⟩ <;> linarith
  · intro h
    have x1 : d * 2575 ≤ d * (g * P) := mul_le_mul_of_nonpos_left gP h
    have x2 : d * 2575 ≤ d * (g * Q) := mul_le_mul_of_nonpos_left gQ h
    have x3 : d * (g * P) ≤ 0 := mul_nonpos_of_nonpos_of_nonneg h gP0.le
    have x4 : d * (g * Q) ≤ 0 := mul_nonpos_of_nonpos_of_nonneg h gQ0.le
    refine ⟨?_, ?_, ?_, ?_⟩ <;> linarith

/-! ### the invariant -/

/-- what holds at the top of the loop: the temperature and the temperature `Kh` at which the saturation mixing ratio was last
evaluated are close, warm enough and below boiling; either only evaporation has happened so far, or the cell is not subsaturated by
more than the tolerance -/
structure Good (o : Opts) (p : ℝ) (s u : Rk) : Prop where
  inv : Inv s u
  temp : ∃ Kh : ℝ, u.rs = r_vs Kh p ∧ |u.th * exner p - Kh| ≤ 0.0012 ∧ p_vs (u.th * exner p) < p ∧ p_vs Kh < p ∧ 250 ≤ Kh
  phase : (s.rv ≤ u.rv ∧ s.th * exner p - 2575 * (u.rv - s.rv) ≤ u.th * exner p ∧ u.th * exner p ≤ s.th * exner p) ∨
    (s.th * exner p - 2575 * (s.rc + s.rr) ≤ u.th * exner p ∧
      u.th * exner p ≤ s.th * exner p + 2575 * (s.rv + s.rc + s.rr - u.rv) ∧ -o.r_eps ≤ u.rv - u.rs)

theorem Good.step (o : Opts) (hcp : o.const_p = true) (htd : o.th_dry = false) (he1 : 1e-5 ≤ o.r_eps) (he2 : o.r_eps ≤ 1e-3)
    (rhod p : ℝ) (hp : 0 < p) (s u : Rk) (hs : 0 ≤ s.rv ∧ 0 ≤ s.rc ∧ 0 ≤ s.rr) (hW : s.rv + s.rc + s.rr ≤ 0.01)
    (hT1 : 250 + 2575 * (s.rc + s.rr) ≤ s.th * exner p) (hT2 : s.th * exner p ≤ 1000) (h : Good o p s u) (hg : rkGuard o u) :
    Good o p s (rkStep o (thermo o rhod p) u).1 ∧
    (u.rv - u.rs > o.r_eps → (rkStep o (thermo o rhod p) u).1.rs ≤ u.rs + 3 / 2 * o.r_eps) := by
  obtain ⟨hI, ⟨Kh, hrs, hlag, hpK, hpKh, hKh⟩, hph⟩ := h
  have he0 : 0 < o.r_eps := lt_of_lt_of_le (by norm_num) he1
  have hrs0 : 0 < u.rs := by rw [hrs]; exact r_vs_pos Kh p hpKh
  have hI' := step_inv o (thermo o rhod p) s u he0.le hrs0.le hg hI
  have hw := hI.water
  have a1 := hI.rv; have a2 := hI.rc; have a3 := hI.rr
  obtain ⟨s1, s2, s3⟩ := hs
  obtain ⟨K, hK⟩ : ∃ K, K = u.th * exner p := ⟨_, rfl⟩
  obtain ⟨T0, hT0⟩ : ∃ T, T = s.th * exner p := ⟨_, rfl⟩
  rw [← hK] at hlag hpK hph
  rw [← hT0] at hph hT1 hT2
  have hK1 : 250 ≤ K := by rcases hph with ⟨_, b, _⟩ | ⟨b, _, _⟩ <;> linarith
  have hK2 : K ≤ 1026 := by rcases hph with ⟨_, _, b⟩ | ⟨_, b, _⟩ <;> norm_num at * <;> linarith
  -- thermodynamics of the step
  have hrsdef : ∀ th rv : ℝ, (thermo o rhod p).rs th rv = r_vs (th * exner p) p := by
    intro th rv
    unfold thermo Tp
    simp [hcp, htd]
  have hdb : -0.01 ≤ rkDrv o u ∧ rkDrv o u ≤ 0.01 := by
    rcases drv_cases o u he0.le hg a3 with ⟨_, e⟩ | ⟨g, _, e⟩ | ⟨g, _, _, g4, e⟩ <;> rw [e]
    · constructor <;> norm_num at * <;> linarith
    · constructor
      · have : 0 ≤ min u.rc (0.5 * (u.rs - u.rv)) := le_min a2 (by linarith)
        exact le_trans (by norm_num) this
      · have := min_le_left u.rc (0.5 * (u.rs - u.rv)); linarith
    · constructor
      · have : 0 ≤ min u.drrMax (min u.rr (0.5 * (u.rs - u.rv))) := le_min g4.le (le_min a3 (by linarith))
        exact le_trans (by norm_num) this
      · have : min u.drrMax (min u.rr (0.5 * (u.rs - u.rv))) ≤ u.rr := (min_le_right _ _).trans (min_le_left _ _)
        linarith
  obtain ⟨K', Kh', e1, e2, hlag', hev, hco⟩ := rk4_bounds o hcp htd rhod p hp u.th u.rv (rkDrv o u) K hK.symm hK1 (by linarith) hdb.1 hdb.2
  have fth : (rkStep o (thermo o rhod p) u).1.th * exner p = K' := by
    unfold rkStep; simp only; split_ifs <;> exact e1
  have frs : (rkStep o (thermo o rhod p) u).1.rs = r_vs Kh' p := by
    unfold rkStep; simp only; split_ifs <;> (simp only; rw [hrsdef, e2])
  have frv : (rkStep o (thermo o rhod p) u).1.rv = u.rv + rkDrv o u := by
    unfold rkStep; simp only; split_ifs <;> rfl
  have hw' := hI'.water
  have b2 := hI'.rc; have b3 := hI'.rr
  rw [frv] at hw'
  by_cases hx : u.rv - u.rs > o.r_eps
  · -- condensation
    have hd : rkDrv o u = -(0.5 * o.r_eps) := by
      rcases drv_cases o u he0.le hg a3 with ⟨_, e⟩ | ⟨g, _, _⟩ | ⟨g, _, _, _, _⟩
      · exact e
      · exfalso; linarith
      · exfalso; linarith
    obtain ⟨c1, c2, c3, c4⟩ := hco (by rw [hd]; linarith)
    rw [hd] at c1 c2 frv hw'
    have hl := (abs_le.1 hlag).2
    have hl2 := (abs_le.1 hlag).1
    have hr : r_vs Kh p ≤ 0.01 := by rw [← hrs]; linarith
    have rise : ∀ y : ℝ, K ≤ y → y ≤ K - 2575 * -(0.5 * o.r_eps) →
        p_vs y < p ∧ r_vs y p ≤ r_vs Kh p + 0.00103 * (0.0012 + 1287.5 * o.r_eps) := by
      intro y h1 h2
      apply r_vs_rise hKh (by linarith) _ _ (by positivity) _ hpKh hr
      · linarith
      · norm_num at *; linarith
      · norm_num at *; linarith
    obtain ⟨r1, _⟩ := rise K' c3 c1
    obtain ⟨r3, r4⟩ := rise Kh' c4 c2
    have hrise : r_vs Kh' p ≤ u.rs + 3 / 2 * o.r_eps := by
      rw [hrs]; norm_num at *; linarith
    refine ⟨⟨hI', ⟨Kh', frs, by rw [fth]; exact hlag', by rw [fth]; exact r1, r3, by linarith⟩, Or.inr ?_⟩, fun _ => by rw [frs]; exact hrise⟩
    rw [fth, frs, frv, ← hT0]
    refine ⟨?_, ?_, by linarith⟩
    · rcases hph with ⟨_, b, _⟩ | ⟨b, _, _⟩ <;> linarith
    · rcases hph with ⟨_, _, b⟩ | ⟨_, b, _⟩ <;> linarith
  · -- evaporation
    have hd : u.rv - u.rs < -o.r_eps ∧ 0 ≤ rkDrv o u := by
      rcases drv_cases o u he0.le hg a3 with ⟨g, _⟩ | ⟨g, _, e⟩ | ⟨g, _, _, g4, e⟩
      · exact absurd g hx
      · exact ⟨g, by rw [e]; exact le_min a2 (by linarith)⟩
      · exact ⟨g, by rw [e]; exact le_min g4.le (le_min a3 (by linarith))⟩
    obtain ⟨c1, c2, c3, c4⟩ := hev hd.2
    have hA : s.rv ≤ u.rv ∧ T0 - 2575 * (u.rv - s.rv) ≤ K ∧ K ≤ T0 := by
      rcases hph with h | ⟨_, _, h⟩
      · exact h
      · exfalso; linarith [hd.1]
    obtain ⟨p1, p2, p3⟩ := hA
    have hKh' : 250 ≤ Kh' := by linarith
    have hK' : 250 ≤ K' := by linarith
    refine ⟨⟨hI', ⟨Kh', frs, by rw [fth]; exact hlag', ?_, ?_, hKh'⟩, Or.inl ?_⟩, fun h => absurd h hx⟩
    · rw [fth]; exact (p_vs_mono (by linarith) c3 (by linarith)).trans_lt hpK
    · exact (p_vs_mono (by linarith) c4 (by linarith)).trans_lt hpK
    · rw [fth, frv, ← hT0]
      refine ⟨by linarith [hd.2], by linarith, by linarith⟩

/-- **C101 (constant-pressure variant).** For every cell with non-negative mixing ratios and at most 10 g/kg of water in total, whose
temperature is at least 250 K plus 2575 K per unit of liquid water (the cooling if all of it evaporated), at most 1000 K, and whose
pressure exceeds the saturation pressure, and every tolerance between 1e-5 and 1e-3 (the default is 2e-5): the adjustment ends, after
at most `4 (rv + rc + rr) / r_eps + 4` passes of the loop. -/
theorem rk_terminates_const_p (o : Opts) (dt : ℝ) (c : Cell) (hcond : o.cond = true) (hcp : o.const_p = true) (htd : o.th_dry = false)
    (he1 : 1e-5 ≤ o.r_eps) (he2 : o.r_eps ≤ 1e-3) (hp : 0 < c.p) (h0 : 0 ≤ c.rv ∧ 0 ≤ c.rc ∧ 0 ≤ c.rr)
    (hW : c.rv + c.rc + c.rr ≤ 0.01) (hT1 : 250 + 2575 * (c.rc + c.rr) ≤ c.th * exner c.p) (hT2 : c.th * exner c.p ≤ 1000)
    (hb : p_vs (c.th * exner c.p) < c.p) :
    ∃ c' s, RkCell o dt c c' ∧ rkInit o c dt = some s ∧
      (∀ n u, ReachIn o (thermo o c.rhod c.p) s n u → (n : ℝ) ≤ 4 * (c.rv + c.rc + c.rr) / o.r_eps + 4) ∧
      ∀ u, Reach o (thermo o c.rhod c.p) s u → 0 ≤ u.rs := by
  have he0 : 0 < o.r_eps := lt_of_lt_of_le (by norm_num) he1
  have hTp : Tp o c.rhod c.p c.th c.rv = some (c.th * exner c.p, c.p) := by unfold Tp; simp [hcp, htd]
  obtain ⟨D, hs⟩ : ∃ D, rkInit o c dt = some ⟨c.th, c.rv, c.rc, c.rr, D, r_vs (c.th * exner c.p) c.p⟩ := by
    unfold rkInit; rw [hTp]; exact ⟨_, rfl⟩
  set s : Rk := ⟨c.th, c.rv, c.rc, c.rr, D, r_vs (c.th * exner c.p) c.p⟩ with hsdef
  have hgood : ∀ u, Reach o (thermo o c.rhod c.p) s u → Good o c.p s u := by
    intro u hu
    induction hu with
    | start =>
      refine ⟨⟨rfl, h0.1, h0.2.1, h0.2.2, le_refl _, by ring, Or.inr rfl⟩, ⟨c.th * exner c.p, rfl, ?_, hb, hb, ?_⟩, Or.inl ⟨le_refl _, ?_, le_refl _⟩⟩
      · simp only [hsdef, sub_self, abs_zero]; norm_num
      · have := h0.2.1; have := h0.2.2; linarith
      · linarith
    | next _ g _ ih => exact (Good.step o hcp htd he1 he2 c.rhod c.p hp s _ h0 hW hT1 hT2 ih g).1
  have hrs : ∀ u, Reach o (thermo o c.rhod c.p) s u → 0 ≤ u.rs := by
    intro u hu
    obtain ⟨Kh, e, _, _, h, _⟩ := (hgood u hu).temp
    rw [e]; exact (r_vs_pos Kh c.p h).le
  obtain ⟨hn, s', hrun⟩ := rk_terminates_partial o (thermo o c.rhod c.p) s he0 h0 hrs (by
    intro u hu hx
    exact (Good.step o hcp htd he1 he2 c.rhod c.p hp s u h0 hW hT1 hT2 (hgood u hu) (Or.inl hx)).2 hx)
  refine ⟨{ c with th := s'.th, rv := s'.rv, rc := s'.rc, rr := s'.rr }, s, ?_, hs, hn, hrs⟩
  unfold RkCell
  rw [if_pos hcond]
  exact ⟨s, s', hs, hrun, rfl⟩

/-- **C38 + C101 (total correctness, constant-pressure variant).** Under the same conditions on the initial cell the RK4 adjustment
ends, and whatever it ends with has the same total water and no negative mixing ratio. -/
theorem rk_total_const_p (o : Opts) (dt : ℝ) (c : Cell) (hcond : o.cond = true) (hn : o.adj_nwtrph = false) (hcp : o.const_p = true)
    (htd : o.th_dry = false) (he1 : 1e-5 ≤ o.r_eps) (he2 : o.r_eps ≤ 1e-3) (hdt : 0 ≤ dt) (hrho : 0 < c.rhod) (hp : 0 < c.p)
    (h0 : 0 ≤ c.rv ∧ 0 ≤ c.rc ∧ 0 ≤ c.rr) (hW : c.rv + c.rc + c.rr ≤ 0.01)
    (hT1 : 250 + 2575 * (c.rc + c.rr) ≤ c.th * exner c.p) (hT2 : c.th * exner c.p ≤ 1000) (hb : p_vs (c.th * exner c.p) < c.p) :
    (∃ c', AdjCell o dt c c') ∧
    ∀ c', AdjCell o dt c c' → c'.water = c.water ∧ 0 ≤ c'.rv ∧ 0 ≤ c'.rc ∧ 0 ≤ c'.rr ∧ c'.rr ≤ c.rr ∧ c'.ria = c.ria ∧ c'.rib = c.rib := by
  obtain ⟨c1, s, h1, hs, _, hrs⟩ := rk_terminates_const_p o dt c hcond hcp htd he1 he2 hp h0 hW hT1 hT2 hb
  have hT : 250 ≤ c.th * exner c.p := by have := h0.2.1; have := h0.2.2; linarith
  have he0 : 0 < o.r_eps := lt_of_lt_of_le (by norm_num) he1
  refine ⟨⟨c1, by unfold AdjCell; simp [hn, h1]⟩, fun c' hc' => ?_⟩
  refine adj_conserves o dt c c' he0.le hdt hrho h0 ?_ ?_ ?_ hc'
  · intro T p hTp
    unfold Tp at hTp
    simp only [hcp, htd, Bool.not_true, Bool.false_eq_true, if_false, Bool.not_false, Bool.and_self, if_true, Option.some.injEq,
      Prod.mk.injEq] at hTp
    obtain ⟨rfl, rfl⟩ := hTp
    exact ⟨by linarith, hp, hb⟩
  · intro h; rw [h, zero_mul] at hT; linarith
  · intro s' u hs' hu
    rw [hs] at hs'
    have hs' := Option.some.inj hs'
    subst hs'
    exact hrs u hu

/-- non-vacuity: a supersaturated cloudy cell at the triple-point temperature and 1000 hPa (saturation 3.8 g/kg) -/
example : ∃ c', RkCell { const_p := true, th_dry := false } 1 ⟨1, 1e5, 273.16, 0.006, 0.001, 0.0005, 0, 0⟩ c' := by
  have hx : exner 1e5 = 1 := by unfold exner p_1000; norm_num
  obtain ⟨c', _, h, _⟩ := rk_terminates_const_p { const_p := true, th_dry := false } 1 ⟨1, 1e5, 273.16, 0.006, 0.001, 0.0005, 0, 0⟩ rfl rfl rfl
    (by norm_num) (by norm_num) (by norm_num) ⟨by norm_num, by norm_num, by norm_num⟩ (by norm_num)
    (by rw [hx]; norm_num) (by rw [hx]; norm_num)
    (by
      rw [hx, mul_one]
      have : p_vs 273.16 = p_tri := triple_point.1
      simp only
      rw [this]; norm_num [p_tri])
  exact ⟨c', h⟩

end LCP.Blk1m
