import Verif.Common.Model

/-!
# Model of the diagnosed thermodynamic fields

Sources: src/impl/housekeeping/particles_impl_hskpng_Tpr.ipp, particles_impl_hskpng_mfp.ipp, include/libcloudph++/common/
{tetens,mean_free_path}.hpp, vterm.hpp (`visc`).  Per cell; the debug-build assertion of the Tetens formulae (T > 0 °C) is not
modelled.
-/
namespace LCP.Common

/-- tetens::p_vs (tetens.hpp:14-23) -/
noncomputable def tet_p_vs (T : ℝ) : ℝ := 6.1078e2 * Real.exp (17.27 * (T - 273.15) / ((T - 273.15) + 237.3))
/-- tetens::r_vs (tetens.hpp:25-36) -/
noncomputable def tet_r_vs (T p : ℝ) : ℝ := 380 / (p * Real.exp (-17.2693882 * (T - 273.15) / (T - 35.86)) - 610.9)

/-- RH_formula_t (include/libcloudph++/lgrngn/RH_formula.hpp) -/
inductive RHFormula where
  | pv_cc
  | rv_cc
  | pv_tet
  | rv_tet

/-- detail::RH (hskpng_Tpr.ipp:75-180) -/
noncomputable def RHof : RHFormula → ℝ → ℝ → ℝ → ℝ
  | .pv_cc, p, rv, T => p_v p rv / p_vs T
  | .rv_cc, p, rv, T => rv / r_vs T p
  | .pv_tet, p, rv, T => p_v p rv / tet_p_vs T
  | .rv_tet, p, rv, T => rv / tet_r_vs T p

/-- detail::RH_i with the formula replaced for the Tetens options (hskpng_Tpr.ipp:111-127, 182-204, 272-276) -/
noncomputable def RHiOf : RHFormula → ℝ → ℝ → ℝ → ℝ
  | .pv_cc, p, rv, T => p_v p rv / p_vsi T
  | .pv_tet, p, rv, T => p_v p rv / p_vsi T
  | .rv_cc, p, rv, T => rv / r_vsi T p
  | .rv_tet, p, rv, T => rv / r_vsi T p

/-- vterm::visc (vterm.hpp:20-31) -/
noncomputable def visc (T : ℝ) : ℝ := 1.72e-5 * (393 / (T + 120)) * (T / T_tri * Real.sqrt (T / T_tri))
/-- mean_free_path::lambda_D (mean_free_path.hpp:15-31) -/
noncomputable def lambda_D (T : ℝ) : ℝ := 2 * D_0 / Real.sqrt (2 * (R_v * T))
/-- mean_free_path::lambda_K (mean_free_path.hpp:34-52) -/
noncomputable def lambda_K (T p : ℝ) : ℝ := 0.8 * (K_0 * T / p) / Real.sqrt (2 * (R_d * T))

/-- options read by `hskpng_Tpr` (opts_init) -/
structure TprOpts where
  th_dry : Bool := true
  const_p : Bool := false
  RH_formula : RHFormula := .pv_cc

/-- temperature (hskpng_Tpr.ipp:221-240): from the dry potential temperature and density, or the standard potential temperature and
pressure -/
noncomputable def TofCell (o : TprOpts) (th rhod p : ℝ) : ℝ := if o.th_dry then Tdry th rhod else th * exner p
/-- pressure (hskpng_Tpr.ipp:251-260): diagnosed unless given -/
noncomputable def pOfCell (o : TprOpts) (rhod rv T p : ℝ) : ℝ := if o.const_p then p else pDry rhod rv T

end LCP.Common
