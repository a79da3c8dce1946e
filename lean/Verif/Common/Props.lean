import Verif.Common.Model
import Mathlib.Analysis.SpecialFunctions.Log.Deriv
import Mathlib.Analysis.SpecialFunctions.ExpDeriv
import Mathlib.Analysis.Calculus.Deriv.Inv
import Mathlib.Tactic.FieldSimp
import Mathlib.Tactic.Positivity
import Mathlib.Tactic.NormNum
import Mathlib.Tactic.LinearCombination

/-!
# Thermodynamic consistency of the formulae
-/
namespace LCP.Common

theorem R_d_pos : 0 < R_d := by norm_num [R_d, kaBoNA, M_d]
theorem R_v_pos : 0 < R_v := by norm_num [R_v, kaBoNA, M_v, M_H, M_OH]
theorem eps_pos : 0 < eps := by norm_num [eps, M_v, M_H, M_OH, M_d]
theorem c_pd_pos : 0 < c_pd := by norm_num [c_pd]
theorem R_d_lt_c_pd : R_d < c_pd := by norm_num [R_d, kaBoNA, M_d, c_pd]
theorem p_1000_pos : 0 < p_1000 := by norm_num [p_1000]
theorem T_tri_pos : 0 < T_tri := by norm_num [T_tri]
theorem p_tri_pos : 0 < p_tri := by norm_num [p_tri]
theorem rho_w_pos : 0 < rho_w := by norm_num [rho_w]
theorem eps_eq : eps = R_d / R_v := by norm_num [eps, R_d, R_v, kaBoNA, M_v, M_H, M_OH, M_d]

theorem p_vs_pos (T : ℝ) : 0 < p_vs T := mul_pos p_tri_pos (Real.exp_pos _)
theorem p_vsi_pos (T : ℝ) : 0 < p_vsi T := mul_pos p_tri_pos (Real.exp_pos _)

theorem Tdry_pos (th rhod : ℝ) (h1 : 0 < th) (h2 : 0 < rhod) : 0 < Tdry th rhod := by
  unfold Tdry
  have := R_d_pos; have := p_1000_pos
  positivity

/-- **C47.** `theta_dry::T` inverts the definition of the dry potential temperature: with `p_d = rhod R_d T` the partial
pressure of dry air, `theta = T (p_1000/p_d)^(R_d/c_pd)`; and it is the only positive temperature that does. -/
theorem Tdry_spec (th rhod T : ℝ) (h1 : 0 < th) (h2 : 0 < rhod) (h3 : 0 < T) :
    th = T * (p_1000 / (rhod * R_d * T)) ^ (R_d / c_pd) ↔ T = Tdry th rhod := by
  have hR := R_d_pos; have hp := p_1000_pos; have hc := c_pd_pos; have hRc := R_d_lt_c_pd
  unfold Tdry
  set a := R_d / c_pd with ha
  have ha1 : a < 1 := by rw [ha, div_lt_one hc]; exact hRc
  have hinv : c_pd / (c_pd - R_d) = (1 - a)⁻¹ := by
    rw [ha]; have : c_pd - R_d ≠ 0 := by linarith
    field_simp
  have hne : (1 - a) ≠ 0 := by linarith
  rw [hinv]
  set q := rhod * R_d / p_1000 with hq
  have hqpos : 0 < q := by positivity
  have e1 : (p_1000 / (rhod * R_d * T)) = (q * T)⁻¹ := by rw [hq]; field_simp
  have e2 : T * (p_1000 / (rhod * R_d * T)) ^ a = T ^ (1 - a) * (q ^ a)⁻¹ := by
    rw [e1, Real.inv_rpow (by positivity), Real.mul_rpow hqpos.le h3.le, Real.rpow_sub h3, Real.rpow_one, mul_inv]
    have : T ^ a ≠ 0 := (Real.rpow_pos_of_pos h3 a).ne'
    field_simp
  rw [e2]
  have hqa : 0 < q ^ a := Real.rpow_pos_of_pos hqpos a
  constructor
  · intro h
    have : th * q ^ a = T ^ (1 - a) := by rw [h]; field_simp
    rw [this, Real.rpow_rpow_inv h3.le hne]
  · intro h
    have : T ^ (1 - a) = th * q ^ a := by
      rw [h, Real.rpow_inv_rpow (by positivity) hne]
    rw [this]; field_simp

/-- conversions between the standard and dry potential temperature are inverse to each other -/
theorem std_dry_inverse (th r : ℝ) (hr : 0 ≤ r) : dry2std (std2dry th r) r = th ∧ std2dry (dry2std th r) r = th := by
  have h1 := R_d_pos; have h2 := R_v_pos
  have : (0 : ℝ) < (1 + r * R_v / R_d) ^ (R_d / c_pd) := Real.rpow_pos_of_pos (by positivity) _
  unfold dry2std std2dry
  constructor <;> field_simp

/-- partial pressures: vapour and dry air pressure of the mixture -/
theorem p_v_pDry (rhod r T : ℝ) (hr : 0 ≤ r) (h2 : 0 < rhod) (h3 : 0 < T) :
    p_v (pDry rhod r T) r = rhod * r * R_v * T ∧ pDry rhod r T - p_v (pDry rhod r T) r = rhod * R_d * T := by
  have h1 := R_d_pos; have h4 := R_v_pos
  have e : p_v (pDry rhod r T) r = rhod * r * R_v * T := by
    unfold p_v pDry
    rw [eps_eq]
    have : r + R_d / R_v ≠ 0 := by positivity
    field_simp
    ring
  rw [e]; refine ⟨rfl, ?_⟩
  unfold pDry; ring

/-- **C47.** The two ways of prescribing the state agree: standard potential temperature with pressure (`T = th_std * exner(p)`,
`rhod` from `theta_std::rhod`), or dry potential temperature with dry density.  Converting `th_std` with `std2dry` yields the
same temperature, and the same total pressure. -/
theorem std_dry_same_state (p thStd rv : ℝ) (hp : 0 < p) (hth : 0 < thStd) (hr : 0 ≤ rv) :
    let rhod := rhodStd p thStd rv
    Tdry (std2dry thStd rv) rhod = thStd * exner p ∧ pDry rhod rv (thStd * exner p) = p := by
  intro rhod
  have hR := R_d_pos; have hv := R_v_pos; have hp0 := p_1000_pos; have hc := c_pd_pos; have he := eps_pos
  have hex : 0 < exner p := Real.rpow_pos_of_pos (by positivity) _
  have hT : 0 < thStd * exner p := by positivity
  have hpd : p - p_v p rv = p * eps / (rv + eps) := by
    unfold p_v; have : rv + eps ≠ 0 := by positivity
    field_simp; ring
  have hrd : rhod * R_d * (thStd * exner p) = p * eps / (rv + eps) := by
    simp only [rhod, rhodStd]
    rw [hpd]
    change p * eps / (rv + eps) / (exner p * R_d * thStd) * R_d * (thStd * exner p) = _
    field_simp
  have hrho : 0 < rhod := by
    simp only [rhod, rhodStd]; rw [hpd]
    exact div_pos (by positivity) (mul_pos (mul_pos hex hR) hth)
  have hfac : 1 + rv * R_v / R_d = (rv + eps) / eps := by
    rw [eps_eq]; field_simp; ring
  constructor
  · symm
    rw [← Tdry_spec _ _ _ (by unfold std2dry; have : (0:ℝ) < 1 + rv * R_v / R_d := by positivity
                              exact mul_pos hth (Real.rpow_pos_of_pos this _)) hrho hT]
    rw [hrd]
    unfold std2dry
    rw [hfac, mul_assoc]
    congr 1
    unfold exner
    rw [← Real.mul_rpow (by positivity) (by positivity)]
    congr 1
    field_simp
  · unfold pDry
    have : rhod * (R_d + rv * R_v) * (thStd * exner p) = rhod * R_d * (thStd * exner p) * (1 + rv * R_v / R_d) := by
      field_simp
    rw [this, hrd, hfac]
    field_simp

/-- Hess' law: latent heat of sublimation = evaporation + freezing, at every temperature -/
theorem hess (T : ℝ) : l_s T = l_v T + l_f T := by
  norm_num [l_s, l_v, l_f, ls_tri, l_tri, lf_tri]; ring

/-- the corresponding identity of the latent heating coefficients: deposition is condensation followed by freezing -/
theorem d_th_hess (T th : ℝ) : d_th_d_rv_dep T th = d_th_d_rv T th + d_th_d_rw_freeze T th := by
  unfold d_th_d_rv_dep d_th_d_rv d_th_d_rw_freeze; rw [hess]; ring

/-- **C47.** Clausius–Clapeyron relation over water with the temperature-dependent latent heat `l_v` -/
theorem clausius_clapeyron (T : ℝ) (hT : 0 < T) : HasDerivAt p_vs (l_v T / (R_v * T ^ 2) * p_vs T) T := by
  have ht := T_tri_pos; have hv := R_v_pos
  unfold p_vs
  have h1 : HasDerivAt (fun T : ℝ => 1 / T) (-(T ^ 2)⁻¹) T := by simpa [one_div] using hasDerivAt_inv hT.ne'
  have h2 : HasDerivAt (fun T : ℝ => Real.log (T / T_tri)) ((1 / T_tri) / (T / T_tri)) T :=
    ((hasDerivAt_id T).div_const T_tri).log (by simp only [id]; positivity)
  have h3 := ((((h1.const_sub (1 / T_tri)).const_mul ((l_tri + (c_pw - c_pv) * T_tri) / R_v)).sub
    (h2.const_mul ((c_pw - c_pv) / R_v))).exp).const_mul p_tri
  refine h3.congr_deriv ?_
  unfold l_v
  simp only [Pi.sub_apply]
  field_simp
  ring

/-- the same over ice, with the latent heat of sublimation -/
theorem clausius_clapeyron_ice (T : ℝ) (hT : 0 < T) : HasDerivAt p_vsi (l_s T / (R_v * T ^ 2) * p_vsi T) T := by
  have ht := T_tri_pos; have hv := R_v_pos
  unfold p_vsi
  have h1 : HasDerivAt (fun T : ℝ => 1 / T) (-(T ^ 2)⁻¹) T := by simpa [one_div] using hasDerivAt_inv hT.ne'
  have h2 : HasDerivAt (fun T : ℝ => Real.log (T / T_tri)) ((1 / T_tri) / (T / T_tri)) T :=
    ((hasDerivAt_id T).div_const T_tri).log (by simp only [id]; positivity)
  have h3 := ((((h1.const_sub (1 / T_tri)).const_mul ((ls_tri + (c_pi - c_pv) * T_tri) / R_v)).sub
    (h2.const_mul ((c_pi - c_pv) / R_v))).exp).const_mul p_tri
  refine h3.congr_deriv ?_
  unfold l_s
  simp only [Pi.sub_apply]
  field_simp
  ring

/-- at the triple point both saturation pressures equal the triple-point pressure -/
theorem triple_point : p_vs T_tri = p_tri ∧ p_vsi T_tri = p_tri := by
  have := T_tri_pos
  unfold p_vs p_vsi
  rw [div_self this.ne']
  simp

/-- **C47.** Below the triple point (down to 115 K) air saturated over water is supersaturated over ice. -/
theorem p_vsi_lt_p_vs (T : ℝ) (h1 : 115 ≤ T) (h2 : T < T_tri) : p_vsi T < p_vs T := by
  have ht := T_tri_pos; have hv := R_v_pos
  have hT : 0 < T := by linarith
  unfold p_vsi p_vs
  apply mul_lt_mul_of_pos_left _ p_tri_pos
  apply Real.exp_lt_exp.2
  rw [← sub_pos]
  -- difference of the exponents
  have hlog : Real.log (T / T_tri) ≤ T / T_tri - 1 := Real.log_le_sub_one_of_pos (by positivity)
  have e : (l_tri + (c_pw - c_pv) * T_tri) / R_v * (1 / T_tri - 1 / T) - (c_pw - c_pv) / R_v * Real.log (T / T_tri) -
      ((ls_tri + (c_pi - c_pv) * T_tri) / R_v * (1 / T_tri - 1 / T) - (c_pi - c_pv) / R_v * Real.log (T / T_tri)) =
      ((334000 : ℝ) * (1 / T - 1 / T_tri) - 2104 * (T_tri / T - 1) - 2104 * Real.log (T / T_tri)) / R_v := by
    have a1 : l_tri = 2500000 := by norm_num [l_tri]
    have a2 : ls_tri = 2834000 := by norm_num [ls_tri]
    have a3 : c_pw = 4218 := rfl
    have a4 : c_pi = 2114 := rfl
    rw [a1, a2, a3, a4]
    field_simp
    ring
  rw [e]
  apply div_pos _ hv
  have hx : (0 : ℝ) < 1 - T / T_tri := by rw [sub_pos, div_lt_one ht]; exact h2
  have key : 0 < (334000 : ℝ) * (1 / T - 1 / T_tri) - 2104 * (T_tri / T - 1) - 2104 * (T / T_tri - 1) := by
    have : (334000 : ℝ) * (1 / T - 1 / T_tri) - 2104 * (T_tri / T - 1) - 2104 * (T / T_tri - 1) =
        (T_tri - T) / (T * T_tri) * (334000 - 2104 * (T_tri - T)) := by
      field_simp; ring
    rw [this]
    apply mul_pos (div_pos (by linarith) (by positivity))
    have : T_tri = 273.16 := rfl
    rw [this]; norm_num at h1 ⊢; linarith
  linarith

/-- relative humidity is 1 exactly at the saturation mixing ratio (when the total pressure exceeds the saturation pressure) -/
theorem saturated_iff (T p r : ℝ) (hr : 0 ≤ r) (hp : p_vs T < p) : p_v p r = p_vs T ↔ r = r_vs T p := by
  have h1 := p_vs_pos T
  have h2 : 0 < p / p_vs T - 1 := by rw [sub_pos, one_lt_div h1]; exact hp
  have he := eps_pos
  unfold p_v r_vs
  rw [div_eq_iff (by positivity), eq_div_iff h2.ne']
  constructor
  · intro h; field_simp; linear_combination h
  · intro h; field_simp at h; linear_combination h

/-- the saturation mixing ratio is positive, increasing with the saturation pressure; below freezing it is lower over ice -/
theorem r_vs_pos (T p : ℝ) (hp : p_vs T < p) : 0 < r_vs T p := by
  have h1 := p_vs_pos T
  have h2 : 0 < p / p_vs T - 1 := by rw [sub_pos, one_lt_div h1]; exact hp
  exact div_pos eps_pos h2

theorem r_vsi_lt_r_vs (T p : ℝ) (h1 : 115 ≤ T) (h2 : T < T_tri) (hp : p_vs T < p) : r_vsi T p < r_vs T p := by
  have hi := p_vsi_lt_p_vs T h1 h2
  have hs := p_vs_pos T; have hsi := p_vsi_pos T
  unfold r_vsi r_vs
  apply div_lt_div_of_pos_left eps_pos
  · rw [sub_pos, one_lt_div hs]; exact hp
  · have : p / p_vs T < p / p_vsi T := div_lt_div_of_pos_left (by linarith) hsi hi
    linarith

example : ∃ T p : ℝ, 115 ≤ T ∧ T < T_tri ∧ p_vs T < p :=
  ⟨250, p_vs 250 + 1, by norm_num, by norm_num [T_tri], by linarith⟩

end LCP.Common
