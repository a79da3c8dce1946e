import Mathlib.Analysis.SpecialFunctions.Pow.Real
import Mathlib.Analysis.SpecialFunctions.Log.Basic
import Mathlib.Analysis.SpecialFunctions.Sqrt

/-!
# Model of the thermodynamic formulae

Sources: include/libcloudph++/common/{molar_mass,moist_air,const_cp,theta_std,theta_dry,earth,kelvin_term,kappa_koehler,
maxwell-mason,transition_regime,ventil}.hpp.  Every quantity is a real number in SI units; `std::pow` is the real power;
Boost.Units bookkeeping (a compile-time check) is dropped.
-/
namespace LCP.Common

/-! ### moist_air.hpp -/

/-- c_pd (moist_air.hpp:26) -/
noncomputable def c_pd : ℝ := 1005
/-- c_pv (moist_air.hpp:27) -/
noncomputable def c_pv : ℝ := 1850
/-- c_pw (moist_air.hpp:28) -/
noncomputable def c_pw : ℝ := 4218
/-- c_pi (moist_air.hpp:29) -/
noncomputable def c_pi : ℝ := 2114
/-- M_d (moist_air.hpp:32) -/
noncomputable def M_d : ℝ := 0.02897
/-- M_H (molar_mass.hpp:23) -/
noncomputable def M_H : ℝ := 1e-3
/-- M_OH (molar_mass.hpp:24) -/
noncomputable def M_OH : ℝ := 17e-3
/-- M_v (moist_air.hpp:33) -/
noncomputable def M_v : ℝ := M_H + M_OH
/-- eps (moist_air.hpp:34) -/
noncomputable def eps : ℝ := M_v / M_d
/-- universal gas constant, kaBoNA (moist_air.hpp:40) -/
noncomputable def kaBoNA : ℝ := 8.3144621
/-- R_d (moist_air.hpp:43) -/
noncomputable def R_d : ℝ := kaBoNA / M_d
/-- R_v (moist_air.hpp:44) -/
noncomputable def R_v : ℝ := kaBoNA / M_v
/-- rho_w (moist_air.hpp:50) -/
noncomputable def rho_w : ℝ := 1e3
/-- rho_i (moist_air.hpp:52) -/
noncomputable def rho_i : ℝ := 910
/-- mix (moist_air.hpp:55-62) -/
noncomputable def mix (dry vap r : ℝ) : ℝ := (dry + r * vap) / (1 + r)
/-- partial pressure of vapour (moist_air.hpp:81-88) -/
noncomputable def p_v (p r : ℝ) : ℝ := p * r / (r + eps)
/-- D_0 (moist_air.hpp:91) -/
noncomputable def D_0 : ℝ := 2.26e-5
/-- K_0 (moist_air.hpp:112) -/
noncomputable def K_0 : ℝ := 2.4e-2

/-! ### const_cp.hpp -/

/-- p_tri (const_cp.hpp:22) -/
noncomputable def p_tri : ℝ := 611.73
/-- T_tri (const_cp.hpp:23) -/
noncomputable def T_tri : ℝ := 273.16
/-- l_tri (const_cp.hpp:24) -/
noncomputable def l_tri : ℝ := 2.5e6
/-- ls_tri (const_cp.hpp:25) -/
noncomputable def ls_tri : ℝ := 2.834e6
/-- lf_tri (const_cp.hpp:26) -/
noncomputable def lf_tri : ℝ := 3.34e5

/-- p_vs (const_cp.hpp:34-44: saturation vapour pressure over water) -/
noncomputable def p_vs (T : ℝ) : ℝ :=
  p_tri * Real.exp ((l_tri + (c_pw - c_pv) * T_tri) / R_v * (1 / T_tri - 1 / T) - (c_pw - c_pv) / R_v * Real.log (T / T_tri))
/-- p_vsi (const_cp.hpp:49-58: over ice) -/
noncomputable def p_vsi (T : ℝ) : ℝ :=
  p_tri * Real.exp ((ls_tri + (c_pi - c_pv) * T_tri) / R_v * (1 / T_tri - 1 / T) - (c_pi - c_pv) / R_v * Real.log (T / T_tri))
/-- r_vs (const_cp.hpp:62-67) -/
noncomputable def r_vs (T p : ℝ) : ℝ := eps / (p / p_vs T - 1)
/-- r_vsi (const_cp.hpp:72-77) -/
noncomputable def r_vsi (T p : ℝ) : ℝ := eps / (p / p_vsi T - 1)
/-- l_v (const_cp.hpp:82-86) -/
noncomputable def l_v (T : ℝ) : ℝ := l_tri + (c_pv - c_pw) * (T - T_tri)
/-- l_s (const_cp.hpp:91-95) -/
noncomputable def l_s (T : ℝ) : ℝ := ls_tri + (c_pv - c_pi) * (T - T_tri)
/-- l_f (const_cp.hpp:100-104) -/
noncomputable def l_f (T : ℝ) : ℝ := lf_tri + (c_pw - c_pi) * (T - T_tri)

/-! ### theta_std.hpp, theta_dry.hpp -/

/-- p_1000 (theta_std.hpp:20) -/
noncomputable def p_1000 : ℝ := 100000
/-- theta_std::rhod (theta_std.hpp:25-32): dry density from pressure, standard potential temperature, vapour mixing ratio -/
noncomputable def rhodStd (p thStd rv : ℝ) : ℝ := (p - p_v p rv) / ((p / p_1000) ^ (R_d / c_pd) * R_d * thStd)
/-- theta_std::exner (theta_std.hpp:37-41) -/
noncomputable def exner (p : ℝ) : ℝ := (p / p_1000) ^ (R_d / c_pd)
/-- theta_dry::T (theta_dry.hpp:24-43) -/
noncomputable def Tdry (th rhod : ℝ) : ℝ := (th * (rhod * R_d / p_1000) ^ (R_d / c_pd)) ^ (c_pd / (c_pd - R_d))
/-- theta_dry::p (theta_dry.hpp:47-53) -/
noncomputable def pDry (rhod r T : ℝ) : ℝ := rhod * (R_d + r * R_v) * T
/-- theta_dry::d_th_d_rv (theta_dry.hpp:60-65) -/
noncomputable def d_th_d_rv (T th : ℝ) : ℝ := -th / T * l_v T / c_pd
/-- theta_dry::d_th_d_rv_dep (theta_dry.hpp:70-75) -/
noncomputable def d_th_d_rv_dep (T th : ℝ) : ℝ := -th / T * l_s T / c_pd
/-- theta_dry::d_th_d_rw_freeze (theta_dry.hpp:80-85) -/
noncomputable def d_th_d_rw_freeze (T th : ℝ) : ℝ := -th / T * l_f T / c_pd
/-- theta_dry::std2dry (theta_dry.hpp:89-100) -/
noncomputable def std2dry (thStd r : ℝ) : ℝ := thStd * (1 + r * R_v / R_d) ^ (R_d / c_pd)
/-- theta_dry::dry2std (theta_dry.hpp:104-115) -/
noncomputable def dry2std (thDry r : ℝ) : ℝ := thDry / (1 + r * R_v / R_d) ^ (R_d / c_pd)

/-! ### kelvin_term.hpp, kappa_koehler.hpp -/

/-- kelvin::sg_surf (kelvin_term.hpp:25-29) -/
noncomputable def sg_surf (T : ℝ) : ℝ := 0.07275 * (1 - 0.002 * (T - 291))
/-- kelvin::A (kelvin_term.hpp:34-39) -/
noncomputable def kelvinA (T : ℝ) : ℝ := 2 * sg_surf T / R_v / T / rho_w
/-- kelvin::klvntrm (kelvin_term.hpp:44-50) -/
noncomputable def klvntrm (r T : ℝ) : ℝ := Real.exp (kelvinA T / r)
/-- `std::cbrt` for non-negative arguments -/
noncomputable def cbrt (x : ℝ) : ℝ := x ^ (1 / 3 : ℝ)
/-- kappa_koehler::rw3_eq_nokelvin (kappa_koehler.hpp:31-41) -/
noncomputable def rw3_eq_nokelvin (rd3 kappa RH : ℝ) : ℝ := rd3 * (1 - RH * (1 - kappa)) / (1 - RH)
/-- kappa_koehler::a_w (kappa_koehler.hpp:46-54) -/
noncomputable def a_w (rw3 rd3 kappa : ℝ) : ℝ := (rw3 - rd3) / (rw3 - rd3 * (1 - kappa))
/-- kappa_koehler::detail::rw3_eq_minfun::operator() (kappa_koehler.hpp:78-85) -/
noncomputable def rw3_eq_minfun (RH rd3 kappa T rw3 : ℝ) : ℝ := RH - a_w rw3 rd3 kappa * klvntrm (cbrt rw3) T
/-- kappa_koehler::detail::rw3_cr_minfun::operator() (kappa_koehler.hpp:107-116) -/
noncomputable def rw3_cr_minfun (rd3 kappa T rw3 : ℝ) : ℝ :=
  kelvinA T * (rd3 - rw3) * ((kappa - 1) * rd3 + rw3) + 3 * kappa * rd3 * rw3 * cbrt rw3

/-! ### maxwell-mason.hpp, transition_regime.hpp, ventil.hpp -/

/-- maxwell_mason::rdrdt (maxwell-mason.hpp:15-46); the pressure argument is not used by the function -/
noncomputable def rdrdt (D K rho_v T RH aw klv : ℝ) : ℝ :=
  (1 - aw * klv / RH) / rho_w / (1 / D / rho_v + l_v T / K / RH / T * (l_v T / R_v / T - 1))
/-- maxwell_mason::rdrdt_i (maxwell-mason.hpp:54-82) -/
noncomputable def rdrdt_i (D K rho_v T RHi : ℝ) : ℝ :=
  (1 - 1 / RHi) / rho_i / (1 / D / rho_v + l_s T / K / RHi / T * (l_s T / R_v / T - 1))
/-- transition_regime::beta (transition_regime.hpp:15-21) -/
noncomputable def beta (Kn : ℝ) : ℝ := (1 + Kn) / (1 + 1.71 * Kn + 1.33 * Kn * Kn)
/-- `std::cbrt` for all arguments -/
noncomputable def cbrtS (x : ℝ) : ℝ := if x < 0 then -cbrt (-x) else cbrt x
/-- ventil::Nu (ventil.hpp:30-43), also Sh (50-56); for a negative Reynolds number `pow` is NaN and `max(1, NaN)` is 1 -/
noncomputable def Nu (Pr Re : ℝ) : ℝ := 1 + cbrtS (1 + Re * Pr) * (if Re < 0 then 1 else max 1 (Re ^ (0.077 : ℝ)))

end LCP.Common
