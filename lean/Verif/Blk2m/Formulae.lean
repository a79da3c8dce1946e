import Verif.Common.Model
import Mathlib.Analysis.SpecialFunctions.Gamma.Basic
import Mathlib.Analysis.SpecialFunctions.Pow.Real
import Mathlib.MeasureTheory.Integral.IntervalIntegral.Basic

/-!
# Formulae of the double-moment scheme

Sources: include/libcloudph++/blk_2m/{common,terminal_vel,cond_evap,activation,autoconversion,accretion,collision_sink}_formulae.hpp,
include/libcloudph++/common/{earth,ventil,vterm}.hpp. Units are dropped (SI), `num_eps` is the parameter `epsm`.
-/
namespace LCP.Blk2m
open LCP.Common

/-- `rho_stp` (common/earth.hpp:20-23) -/
noncomputable def rho_stp : ℝ := 101325 / (273.15 + 15) / R_d
/-- `vterm::visc` (common/vterm.hpp:20-33) -/
noncomputable def visc (T : ℝ) : ℝ := 1.72 * 1e-5 * (393 / (T + 120)) * (T / T_tri * Real.sqrt (T / T_tri))
/-- `ventil::Sc` (common/ventil.hpp:61-68) -/
noncomputable def Sc (eta rho D : ℝ) : ℝ := eta / rho / D
/-- `std::erf` (definition of the C++ standard library function) -/
noncomputable def erf (x : ℝ) : ℝ := 2 / Real.sqrt Real.pi * ∫ t in (0:ℝ)..x, Real.exp (-t ^ 2)

/-! ### common_formulae.hpp -/
/-- rc_eps (common_formulae.hpp:25) -/
noncomputable def rc_eps (epsm : ℝ) : ℝ := 1e-3 * epsm
/-- rr_eps (common_formulae.hpp:26) -/
noncomputable def rr_eps (epsm : ℝ) : ℝ := 1e-4 * epsm
/-- nc_eps (common_formulae.hpp:27) -/
noncomputable def nc_eps (epsm : ℝ) : ℝ := 1e7 * epsm
/-- nr_eps (common_formulae.hpp:28) -/
noncomputable def nr_eps (epsm : ℝ) : ℝ := 1e6 * epsm
/-- eta (common_formulae.hpp:31-36) -/
noncomputable def eta (n : ℝ) : ℝ := 0.0005714 * 1e-6 * n + 0.2714
/-- c_md (common_formulae.hpp:40) -/
noncomputable def c_md : ℝ := Real.pi / 6 * rho_w
/-- d_md (common_formulae.hpp:41) -/
noncomputable def d_md : ℝ := 3
/-- miu_c (common_formulae.hpp:47-55) -/
noncomputable def miu_c (n : ℝ) : ℝ := 1 / (eta n * eta n) - 1
/-- lambda_c (common_formulae.hpp:58-74) -/
noncomputable def lambda_c (n rc rhod : ℝ) : ℝ :=
  (c_md * n * Real.Gamma (miu_c (n * rhod) + d_md + 1) / (rc * Real.Gamma (miu_c (n * rhod) + 1))) ^ (1 / d_md)
/-- lambda_r (common_formulae.hpp:96-108) -/
noncomputable def lambda_r (nr rr : ℝ) : ℝ := (c_md * nr * Real.Gamma (d_md + 1) / rr) ^ (1 / d_md)
/-- N0_r (common_formulae.hpp:111-122) -/
noncomputable def N0_r (n rr : ℝ) : ℝ := n * lambda_r n rr
/-- r_drop_c (common_formulae.hpp:125-137) -/
noncomputable def r_drop_c (rc nc rhod : ℝ) : ℝ :=
  if 0 < rc ∧ 0 < nc then (miu_c (nc * rhod) + 1) / lambda_c nc rc rhod / 2 else 0
/-- r_drop_r (common_formulae.hpp:140-149) -/
noncomputable def r_drop_r (rr nr : ℝ) : ℝ := if 0 < rr ∧ 0 < nr then 1 / lambda_r nr rr / 2 else 0

/-! ### terminal_vel_formulae.hpp -/
/-- d1 (terminal_vel_formulae.hpp:27) -/
noncomputable def d1 : ℝ := 134.43 * 1e-6
/-- d2 (terminal_vel_formulae.hpp:28) -/
noncomputable def d2 : ℝ := 1511.64 * 1e-6
/-- d3 (terminal_vel_formulae.hpp:29) -/
noncomputable def d3 : ℝ := 3477.84 * 1e-6
/-- alpha_fall (terminal_vel_formulae.hpp:31-42) -/
noncomputable def alpha_fall (r : ℝ) : ℝ :=
  if 2 * r = 0 then 0 else if 2 * r < d1 then 4.5795 * 1e5 else if 2 * r < d2 then 4.962 * 1e3
  else if 2 * r < d3 then 1.732 * 1e3 else 9.17 * 1e2
/-- beta_fall (terminal_vel_formulae.hpp:44-54) -/
noncomputable def beta_fall (r : ℝ) : ℝ :=
  if 2 * r < d1 then 2 / 3 else if 2 * r < d2 then 1 / 3 else if 2 * r < d3 then 1 / 6 else 0
/-- mint_1 (terminal_vel_formulae.hpp:58-68) -/
noncomputable def mint_1 (l D : ℝ) : ℝ := -l ^ (-6 : ℤ) * Real.exp (-l * D) *
  ((l * D) ^ 5 + 5 * (l * D) ^ 4 + 20 * (l * D) ^ 3 + 60 * (l * D) ^ 2 + 120 * (l * D) + 120)
/-- mint_2 (terminal_vel_formulae.hpp:70-80) -/
noncomputable def mint_2 (l D : ℝ) : ℝ := -l ^ (-5 : ℤ) * Real.exp (-l * D) *
  ((l * D) ^ 4 + 4 * (l * D) ^ 3 + 12 * (l * D) ^ 2 + 24 * (l * D) + 24)
/-- mint_3 (terminal_vel_formulae.hpp:82-94) -/
noncomputable def mint_3 (l D : ℝ) : ℝ := 1 / 16 / l ^ (9 / 2 : ℝ) *
  (105 * Real.sqrt Real.pi * erf (Real.sqrt (l * D))
    - 2 * Real.sqrt (l * D) * Real.exp (-l * D) * (8 * (l * D) ^ 3 + 28 * (l * D) ^ 2 + 70 * (l * D) + 105))
/-- mint_4 (terminal_vel_formulae.hpp:97-107) -/
noncomputable def mint_4 (l D : ℝ) : ℝ := -l ^ (-4 : ℤ) * Real.exp (-l * D) *
  ((l * D) ^ 3 + 3 * (l * D) ^ 2 + 6 * (l * D) + 6)
/-- nint_1 (terminal_vel_formulae.hpp:113-122) -/
noncomputable def nint_1 (l D : ℝ) : ℝ := l ^ (-3 : ℤ) * Real.exp (-l * D) * (-(l * D) * (l * D + 2) - 2)
/-- nint_2 (terminal_vel_formulae.hpp:125-134) -/
noncomputable def nint_2 (l D : ℝ) : ℝ := -l ^ (-2 : ℤ) * Real.exp (-l * D) * (l * D + 1)
/-- nint_3 (terminal_vel_formulae.hpp:137-147) -/
noncomputable def nint_3 (l D : ℝ) : ℝ := Real.sqrt Real.pi * erf (Real.sqrt (l * D)) / 2 / l ^ (3 / 2 : ℝ)
  - Real.sqrt D * Real.exp (-l * D) / l
/-- nint_4 (terminal_vel_formulae.hpp:150-159) -/
noncomputable def nint_4 (l D : ℝ) : ℝ := -l ^ (-1 : ℤ) * Real.exp (-l * D)
/-- the expression `c_md * 1000` raised to `beta` (terminal_vel_formulae.hpp:176, 210, …) -/
noncomputable def powB (r : ℝ) : ℝ := (c_md * 1000) ^ beta_fall r
/-- v_term_m (terminal_vel_formulae.hpp:161-193) -/
noncomputable def v_term_m (epsm rhod rr nr : ℝ) : ℝ :=
  if rr < rr_eps epsm ∨ nr < nr_eps epsm then 0 else
  let l := lambda_r nr rr
  rho_stp / rhod * l ^ (4 : ℝ) / 6 *
    (alpha_fall (d1 / 4) * powB (d1 / 4) * (mint_1 l d1 - mint_1 l 0)
      + alpha_fall ((d1 + d2) / 4) * powB ((d1 + d2) / 4) * (mint_2 l d2 - mint_2 l d1)
      + alpha_fall ((d2 + d3) / 4) * powB ((d2 + d3) / 4) * (mint_3 l d3 - mint_3 l d2)
      + alpha_fall d3 * (0 - mint_4 l d3)) * 1e-2
/-- v_term_n (terminal_vel_formulae.hpp:195-228) -/
noncomputable def v_term_n (epsm rhod rr nr : ℝ) : ℝ :=
  if rr < rr_eps epsm ∨ nr < nr_eps epsm then 0 else
  let l := lambda_r nr rr
  rho_stp / rhod * l *
    (alpha_fall (d1 / 4) * powB (d1 / 4) * (nint_1 l d1 - nint_1 l 0)
      + alpha_fall ((d1 + d2) / 4) * powB ((d1 + d2) / 4) * (nint_2 l d2 - nint_2 l d1)
      + alpha_fall ((d2 + d3) / 4) * powB ((d2 + d3) / 4) * (nint_3 l d3 - nint_3 l d2)
      + alpha_fall d3 * (0 - nint_4 l d3)) * 1e-2

/-! ### cond_evap_formulae.hpp -/
/-- tau_relax_c (cond_evap_formulae.hpp:32-40) -/
noncomputable def tau_relax_c (r N : ℝ) : ℝ := 1 / (4 * Real.pi * D_0 * N * r)
/-- a_fall (cond_evap_formulae.hpp:52-61) -/
noncomputable def a_fall (rr nr : ℝ) : ℝ :=
  let r := r_drop_r rr nr
  alpha_fall r * (c_md * 1000) ^ beta_fall r * (1e-6 : ℝ) ^ (d_md * beta_fall r)
/-- b_fall (cond_evap_formulae.hpp:63-71) -/
noncomputable def b_fall (rr nr : ℝ) : ℝ := d_md * beta_fall (r_drop_r rr nr)
/-- tau_relax_r (cond_evap_formulae.hpp:75-106) -/
noncomputable def tau_relax_r (T rhod rr nr : ℝ) : ℝ :=
  1 / (2 * Real.pi * D_0 * (rhod * N0_r nr rr) * Real.Gamma 2 *
    (0.78 / lambda_r nr rr ^ (2 : ℝ)
      + 0.308 * Real.sqrt (a_fall rr nr * rhod / visc T) * Sc (visc T) rhod D_0 ^ (1 / 3 : ℝ)
        * Real.Gamma ((b_fall rr nr + 5) / 2) * lambda_r nr rr ^ (-(b_fall rr nr + 5) / 2)))
/-- drv_s_dT (cond_evap_formulae.hpp:110-116) -/
noncomputable def drv_s_dT (T rvs : ℝ) : ℝ := l_v T * rvs / R_v / (T * T)
/-- moist_air::c_p (common/moist_air.hpp:73-78) -/
noncomputable def c_p (r : ℝ) : ℝ := mix c_pd c_pv r
/-- cond_evap_rate (cond_evap_formulae.hpp:119-128) -/
noncomputable def cond_evap_rate (T p rv tau : ℝ) : ℝ :=
  (rv - r_vs T p) / tau / (1 + drv_s_dT T (r_vs T p) * l_v T / c_p rv)

/-! ### activation, autoconversion, accretion, collision sink -/
/-- ccnmass (activation_formulae.hpp:28-29) -/
noncomputable def ccnmass : ℝ := 4 / 3 * Real.pi * (1e-6 : ℝ) ^ 3 * rho_w
/-- s_0 (activation_formulae.hpp:32-40), `beta = 0.5` -/
noncomputable def s_0 (T mean_rd chem_b : ℝ) : ℝ :=
  mean_rd ^ (-(1 + 0.5) : ℝ) * Real.sqrt (4 * kelvinA T ^ 3 / 27 / chem_b)
/-- s (activation_formulae.hpp:43-50) -/
noncomputable def sup (p T rv : ℝ) : ℝ := rv / r_vs T p - 1
/-- u (activation_formulae.hpp:62-77) with sdev_rd_s (53-59) -/
noncomputable def u (p T rv mean_rd sdev_rd chem_b RH_max : ℝ) : ℝ :=
  Real.log (s_0 T mean_rd chem_b / min (sup p T rv) (RH_max - 1)) / Real.sqrt 2 / Real.log (sdev_rd ^ (1 + 0.5 : ℝ))
/-- n_c_p (activation_formulae.hpp:80-93) -/
noncomputable def n_c_p (p T rv mean_rd sdev_rd N_stp chem_b RH_max : ℝ) : ℝ :=
  N_stp / rho_stp / 2 * (1 - erf (u p T rv mean_rd sdev_rd chem_b RH_max))
/-- activation_rate (activation_formulae.hpp:96-106) -/
noncomputable def activation_rate (n_ccn nc dt : ℝ) : ℝ := max 0 ((n_ccn - nc) / dt)
/-- drizzle_radius (autoconversion_formulae.hpp:23) -/
noncomputable def drizzle_radius : ℝ := 25 * 1e-6
/-- autoconv_rate (autoconversion_formulae.hpp:25-42) -/
noncomputable def autoconv_rate (rc nc rhod A b c : ℝ) : ℝ := A * rc ^ b * (rhod * nc * 1e-6) ^ c
/-- accretion_rate (accretion_formulae.hpp:20-26) -/
noncomputable def accretion_rate (rc rr : ℝ) : ℝ := 67 * (rc * rr) ^ (1.15 : ℝ)
/-- collision_sink_rate (collision_sink_formulae.hpp:21-27) -/
noncomputable def collision_sink_rate (drr r : ℝ) : ℝ := drr / (4 / 3 * Real.pi * (r * r * r) * rho_w)

end LCP.Blk2m
