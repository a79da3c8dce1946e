import Verif.Common.Koehler

/-!
# Kelvin term: the law for curved surfaces

Source: include/libcloudph++/common/kelvin_term.hpp:20-50 (model in Verif.Common.Model).
-/
namespace LCP.Common

/-- **C48.** The Kelvin term is `exp(2σ / (R_v T ρ_w r))` with the surface tension `σ` of 72.75 mN/m at 291 K which drops by 0.2 % of that per kelvin. -/
theorem kelvin_law (r T : ℝ) :
    klvntrm r T = Real.exp (2 * (0.07275 - 0.0001455 * (T - 291)) / (8.3144621 / 0.018 * T * 1000 * r)) := by
  unfold klvntrm kelvinA sg_surf R_v M_v M_H M_OH kaBoNA rho_w
  congr 1
  rw [div_div, div_div, div_div]
  congr 1 <;> norm_num <;> ring

/-- **C48.** Below the temperature at which this surface tension vanishes, humidity above a curved surface exceeds that above a flat one, and more so for
smaller and for colder droplets. -/
theorem kelvin_effect (r r' T T' : ℝ) (h0 : 0 < T) (h1 : T < 791) (hr : 0 < r) (hr' : r < r') (hT' : 0 < T') (hT : T' < T) :
    1 < klvntrm r T ∧ klvntrm r' T < klvntrm r T ∧ klvntrm r T < klvntrm r T' := by
  have hA := kelvinA_pos T h0 h1
  refine ⟨?_, ?_, ?_⟩
  · unfold klvntrm; exact Real.one_lt_exp_iff.mpr (by positivity)
  · unfold klvntrm; exact Real.exp_lt_exp.mpr (div_lt_div_of_pos_left hA hr hr')
  · rw [kelvin_law, kelvin_law, Real.exp_lt_exp, div_lt_div_iff₀ (by positivity) (by positivity)]
    have hk : (0 : ℝ) < 8.3144621 / 0.018 * 1000 * r := by positivity
    obtain ⟨K, hK⟩ : ∃ K : ℝ, K = 8.3144621 / 0.018 * 1000 * r := ⟨_, rfl⟩
    have e1 : 8.3144621 / 0.018 * T' * 1000 * r = K * T' := by rw [hK]; ring
    have e2 : 8.3144621 / 0.018 * T * 1000 * r = K * T := by rw [hK]; ring
    rw [e1, e2]
    have : 2 * (0.07275 - 0.0001455 * (T - 291)) * (K * T') = K * (2 * (0.07275 - 0.0001455 * (T - 291)) * T') := by ring
    rw [this]
    have : 2 * (0.07275 - 0.0001455 * (T' - 291)) * (K * T) = K * (2 * (0.07275 - 0.0001455 * (T' - 291)) * T) := by ring
    rw [this]
    have hKp : 0 < K := by rw [hK]; exact hk
    refine mul_lt_mul_of_pos_left ?_ hKp
    nlinarith

example : klvntrm 1e-8 291 = Real.exp (2 * 0.07275 / (8.3144621 / 0.018 * 291 * 1000 * 1e-8)) := by rw [kelvin_law]; norm_num
example : 1 < klvntrm 1e-8 280 := (kelvin_effect 1e-8 1e-7 280 270 (by norm_num) (by norm_num) (by norm_num) (by norm_num) (by norm_num) (by norm_num)).1

end LCP.Common
