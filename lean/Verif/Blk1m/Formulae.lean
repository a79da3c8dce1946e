import Verif.Common.Model
import Mathlib.Analysis.SpecialFunctions.Log.Base
import Mathlib.Analysis.Real.Pi.Bounds
import Mathlib.Algebra.Order.Floor.Ring

/-!
# Formulae of the single-moment scheme

Source: include/libcloudph++/blk_1m/formulae.hpp.  SI units, real numbers.  `std::pow` with non-negative base is the real
power; `std::log10` is `Real.logb 10`.  `epsm` stands for `std::numeric_limits<real_t>::epsilon()`.
-/
namespace LCP.Blk1m
open LCP.Common

/-- autoconversion_rate (formulae.hpp:23-30) -/
noncomputable def autoconversion (rc thr k : ℝ) : ℝ := k * max 0 (rc - thr)
/-- collection_rate (formulae.hpp:34-42) -/
noncomputable def collection (rc rr : ℝ) : ℝ := 2.2 * rc * rr ^ (0.875 : ℝ)
/-- evaporation_rate (formulae.hpp:46-70) -/
noncomputable def evaporation (rv rvs rr rhod p : ℝ) : ℝ :=
  (1 - rv / rvs) / rhod * (1.6 + 124.9 * (1e-3 * rhod * rr) ^ (0.2046 : ℝ)) * (1e-3 * rhod * rr) ^ (0.525 : ℝ)
    / (5.4e2 + 2.55e5 * (1 / p / rvs))
/-- v_term (formulae.hpp:74-94) -/
noncomputable def vTerm (rr rhod rhod0 : ℝ) : ℝ := 36.34 * ((rhod * rr * 1e-3) ^ (0.1346 : ℝ) * Real.sqrt (rhod0 / rhod))
/-- lambda_rain (formulae.hpp:98-106) -/
noncomputable def lambdaRain (rr rhod : ℝ) : ℝ := (Real.pi * rho_w * 1e7 / (rhod * rr)) ^ (0.25 : ℝ)

/-- ice water content and its small and large part (formulae.hpp:118-122, 152-156) -/
noncomputable def IWC (ria rhod : ℝ) : ℝ := max 1e-9 (rhod * ria)
@[inherit_doc IWC] noncomputable def IWCS (ria rhod : ℝ) : ℝ :=
  max 1e-9 (min (min 1e-3 (IWC ria rhod)) (2.52e-4 * (IWC ria rhod / 1e-3) ^ (0.837 : ℝ)))
@[inherit_doc IWC] noncomputable def IWCL (ria rhod : ℝ) : ℝ := max 1e-9 (IWC ria rhod - IWCS ria rhod)
/-- weight of small ice (formulae.hpp:139, 162) -/
noncomputable def delta (ria rhod : ℝ) : ℝ := IWCS ria rhod / (IWCS ria rhod + IWCL ria rhod)

/-- mass_a (formulae.hpp:110-142) -/
noncomputable def massA (ria T rhod : ℝ) : ℝ :=
  let tempc := T - 273.16
  let alpha := max 1e3 (4.99e3 - 4.94e4 * Real.logb 10 (IWCS ria rhod / 1e-3))
  let m_as := 6.28 * rho_i / alpha ^ 3
  let ami := 5.20 + 1.3e-3 * tempc
  let bmi := 0.026 - 1.2e-3 * tempc
  let asi := 0.47 + 2.1e-3 * tempc
  let bsi := 0.018 - 2.1e-4 * tempc
  let alorat := Real.logb 10 (IWCL ria rhod / 1e-3)
  let miu := max 4.6 (min 5.4 (ami + bmi * alorat))
  let sig := max 0 (min 0.5 (asi + bsi * alorat))
  let m_al := 5.24e-19 * rho_i * Real.exp (3 * miu + 4.5 * sig ^ 2)
  let d := delta ria rhod
  max 1e-18 (d * m_as + (1 - d) * m_al)

/-- velocity_iceA (formulae.hpp:146-165) -/
noncomputable def velA (ria rhod : ℝ) : ℝ :=
  (delta ria rhod * 0.1 + (1 - delta ria rhod) * (0.9 + 0.1 * Real.logb 10 (1e3 * IWCL ria rhod))) * (1 / rhod) ^ (0.5 : ℝ)

/-- lambda_ice_b (formulae.hpp:173-183) -/
noncomputable def lambdaB (epsm rib rhod : ℝ) : ℝ := (Real.pi * 400 * 4e6 / (rhod * rib + epsm)) ^ (0.25 : ℝ)
/-- mass_b (formulae.hpp:188-198) -/
noncomputable def massB (epsm rib rhod : ℝ) : ℝ := max 1e-18 (Real.pi * 400 / (6 * lambdaB epsm rib rhod ^ 3))
/-- velocity_iceB (formulae.hpp:202-212) -/
noncomputable def velB (epsm rib rhod : ℝ) : ℝ := 31.2 * lambdaB epsm rib rhod ^ (-0.37 : ℝ) * rhod ^ (-0.5 : ℝ)

/-- alpha_list (formulae.hpp:218-230) -/
noncomputable def alphaList : List ℝ := [0, 0.7939e-7, 0.7841e-6, 0.3369e-5, 0.4336e-5, 0.5285e-5, 0.3728e-5, 0.1852e-5, 0.2991e-6,
  0.4248e-6, 0.7434e-6, 0.1812e-5, 0.4394e-5, 0.9145e-5, 0.1725e-4, 0.3348e-4, 0.1725e-4, 0.9175e-5, 0.4412e-5, 0.2252e-5,
  0.9115e-6, 0.4876e-6, 0.3473e-6, 0.4758e-6, 0.6306e-6, 0.8573e-6, 0.7868e-6, 0.7192e-6, 0.6515e-6, 0.5956e-6, 0.533e-6,
  0.4834e-6]
/-- beta_list (formulae.hpp:244-253) -/
noncomputable def betaList : List ℝ := [0, 0.4006, 0.4831, 0.5320, 0.5307, 0.5319, 0.5249, 0.4888, 0.3894, 0.4047, 0.4318, 0.4771, 0.5183,
  0.5463, 0.5651, 0.5813, 0.5655, 0.5478, 0.5203, 0.4906, 0.4447, 0.4126, 0.3960, 0.4149, 0.4320, 0.4506, 0.4483, 0.4460, 0.4433,
  0.4413, 0.4382, 0.4361]
/-- ttcoe (formulae.hpp:231-234) -/
noncomputable def ttcoe (T : ℝ) : ℝ := min 0 (max (-31) (T - 273.16))
/-- index1 (formulae.hpp:235); the argument is non-negative, so `trunc` is the floor -/
noncomputable def index1 (T : ℝ) : ℕ := ⌊-ttcoe T⌋₊
/-- linear interpolation in a table (formulae.hpp:235-238); `oob` is whatever is read beyond the end of the array -/
noncomputable def interpTab (tab : List ℝ) (oob T : ℝ) : ℝ :=
  let del := -ttcoe T - index1 T
  (1 - del) * tab.getD (index1 T) oob + del * tab.getD (index1 T + 1) oob
/-- coeff_alpha (formulae.hpp:216-239) -/
noncomputable def coeffAlpha (oob T : ℝ) : ℝ := interpTab alphaList oob T
/-- coeff_beta (formulae.hpp:242-262) -/
noncomputable def coeffBeta (oob T : ℝ) : ℝ := interpTab betaList oob T

open Classical in
/-- hom_A_nucleation_1 (formulae.hpp:266-284); `taunuc = dt` (assumed non-zero), hence the factor `1 - exp(-1)` -/
noncomputable def homA1 (rv rvs rvsi T : ℝ) : ℝ :=
  let beta := if T > 213.16 then 0.1 + 0.9 * (T - 213.16) / 20 else 0.1
  let rv_adj := beta * rvs + (1 - beta) * rvsi
  if T < 233.16 then (1 - Real.exp (-1)) * max 0 (rv - rv_adj) else 0
open Classical in
/-- hom_A_nucleation_2 (formulae.hpp:288-299) -/
noncomputable def homA2 (rc T : ℝ) : ℝ := if T < 233.16 then (1 - Real.exp (-1)) * rc else 0
open Classical in
/-- het_A_nucleation (formulae.hpp:303-326) -/
noncomputable def hetA (ria rc T rhod : ℝ) : ℝ :=
  if rc = 0 ∨ T > 273.16 then 0 else
  (1 - Real.exp (-1)) * min rc (max 0 (min 1e5 (1e-2 * Real.exp (0.6 * (273.16 - T))) * massA ria T rhod / rhod - ria))
/-- rate of collisions between raindrops and ice A (formulae.hpp:342-361); `abs` is the real absolute value -/
noncomputable def Nra (rr ria T rhod : ℝ) : ℝ :=
  let l := lambdaRain rr rhod
  let v_r := 251 * (l * rhod) ^ (-0.5 : ℝ)
  let R_r := 0.5 / l
  1e7 / l * |v_r - velA ria rhod| * Real.pi * R_r * R_r * ria / massA ria T rhod
open Classical in
/-- het_B_nucleation_1 (formulae.hpp:330-362) -/
noncomputable def hetB1 (rr ria T rhod : ℝ) : ℝ :=
  if ria = 0 ∨ rr = 0 ∨ T > 273.16 then 0 else Nra rr ria T rhod * (Real.pi * rho_w / (6 * lambdaRain rr rhod ^ 3))
open Classical in
/-- het_B_nucleation_2 (formulae.hpp:366-395); the code calls `abs` unqualified, taken to be the floating-point one -/
noncomputable def hetB2 (rr ria T rhod : ℝ) : ℝ :=
  if ria = 0 ∨ rr = 0 ∨ T > 273.16 then 0 else Nra rr ria T rhod * massA ria T rhod
/-- vterm::visc (common/vterm.hpp:20-31) -/
noncomputable def visc (T : ℝ) : ℝ := 1.72e-5 * (393 / (T + 120)) * (T / T_tri * Real.sqrt (T / T_tri))
open Classical in
/-- melting_A (formulae.hpp:399-426) -/
noncomputable def meltA (ria T rhod dt : ℝ) : ℝ :=
  if ria = 0 ∨ T < 273.16 then 0 else
  let m := massA ria T rhod
  let D := (m / 0.025) ^ (0.5 : ℝ)
  let Re := D * velA ria rhod * rhod / visc T
  let F := max 1 (0.78 + 0.27 * Re ^ (0.5 : ℝ))
  min (ria / dt) (9e-7 * D / 2 * F * max 0 (T - 273.16) * ria / m)
open Classical in
/-- melting_B (formulae.hpp:430-459) -/
noncomputable def meltB (epsm rib T rhod dt : ℝ) : ℝ :=
  if rib = 0 ∨ T < 273.16 then 0 else
  let m := massB epsm rib rhod
  let D := 1 / lambdaB epsm rib rhod
  let Re := D * velB epsm rib rhod * rhod / visc T
  let F := max 1 (0.78 + 0.27 * Re ^ (0.5 : ℝ))
  min (rib / dt) (9e-7 * D / 2 * F * max 0 (T - 273.16) * rib / m)
/-- growth of one particle of mass `m` in regime AE (formulae.hpp:482-485, 508-511, 560-563, 587-590) -/
noncomputable def dmAE (epsm oob rv rvs rvsi T m : ℝ) : ℝ :=
  1e-3 * (rv - rvsi) / (rvs - rvsi + epsm) * coeffAlpha oob T * (m * 1e3) ^ coeffBeta oob T
open Classical in
/-- deposition_A (formulae.hpp:464-488) -/
noncomputable def depA (epsm oob ria rv rvs rvsi T rhod : ℝ) : ℝ :=
  if ria = 0 ∨ T > 273.16 then 0 else ria / massA ria T rhod * dmAE epsm oob rv rvs rvsi T (massA ria T rhod)
open Classical in
/-- deposition_B (formulae.hpp:543-566) -/
noncomputable def depB (epsm oob rib rv rvs rvsi T rhod : ℝ) : ℝ :=
  if rib = 0 ∨ T > 273.16 then 0 else rib / massB epsm rib rhod * dmAE epsm oob rv rvs rvsi T (massB epsm rib rhod)
open Classical in
/-- riming growth rate of a species with mixing ratio `ri` and particle mass `m` (formulae.hpp:507-537, 586-616).  For
`rc = 0` (possible for ice B) the code computes `log(0)`: regime BC gives 0 and regime CD a NaN which `std::max(0, NaN)`
turns into 0; this is the first branch of `bc` and of the last conditional. -/
noncomputable def riming (epsm oob ri rc rv rvs rvsi T rhod m : ℝ) : ℝ :=
  let ae := dmAE epsm oob rv rvs rvsi T m
  let tanTheta := 1 + 0.1 * Real.log (rhod * rc * 1e3)
  let gamma := coeffAlpha oob T * (5e-8 : ℝ) ^ coeffBeta oob T
  let bc := if rc = 0 then 0 else 1e-3 * gamma * (m / 5e-11) ^ tanTheta
  let dzeta := gamma * (2e3 : ℝ) ^ tanTheta
  let xi := Real.log (rc * rhod * 1e9 / dzeta) / Real.log 1e4
  let cd := 1e-3 * dzeta * (m * 1e7) ^ xi
  (if m > 5e-11 ∧ m ≤ 1e-7 then max 0 (bc - ae) * ri / m else 0) +
    (if m > 1e-7 then (if rc = 0 then 0 else max 0 (cd - ae)) * ri / m else 0)
open Classical in
/-- riming_A (formulae.hpp:492-539) -/
noncomputable def rimA (epsm oob ria rc rv rvs rvsi T rhod : ℝ) : ℝ :=
  if ria = 0 ∨ rc = 0 ∨ T > 273.16 then 0 else riming epsm oob ria rc rv rvs rvsi T rhod (massA ria T rhod)
open Classical in
/-- riming_B (formulae.hpp:570-616) -/
noncomputable def rimB (epsm oob rib rc rv rvs rvsi T rhod : ℝ) : ℝ :=
  if rib = 0 ∨ T > 273.16 then 0 else riming epsm oob rib rc rv rvs rvsi T rhod (massB epsm rib rhod)
/-- riming_B_1 (formulae.hpp:620-633) -/
noncomputable def rimB1 (epsm oob rib rc rr rv rvs rvsi T rhod : ℝ) : ℝ :=
  rc / (rc + rr + 1e-10) * rimB epsm oob rib rc rv rvs rvsi T rhod
/-- riming_B_2 (formulae.hpp:637-650) -/
noncomputable def rimB2 (epsm oob rib rc rr rv rvs rvsi T rhod : ℝ) : ℝ :=
  (1 - rc / (rc + rr + 1e-10)) * rimB epsm oob rib rc rv rvs rvsi T rhod

end LCP.Blk1m
